/-
internal/config/config.go, pkg/logger/logger.go: the log level.
-/
namespace JT808

/-- zerolog.Level of the events the server writes (Debug 0, Info 1, Warn 2, Error 3, Fatal 4; the numbering is that of
zerolog v1). -/
inductive Level where
  | debug | info | warn | error | fatal
  deriving DecidableEq, Repr

/-- int8(zerolog.XxxLevel), config.go:185-193. -/
def Level.num : Level → Nat
  | .debug => 0
  | .info => 1
  | .warn => 2
  | .error => 3
  | .fatal => 4

/-- The switch of (*Config).ParseLogConf, config.go:182-194: without a matching case the variable keeps its zero value.
The last case is spelt with a small l. -/
def parseLevel (s : String) : Nat :=
  if s = "DEBUG" then Level.debug.num
  else if s = "INFO" then Level.info.num
  else if s = "WARN" then Level.warn.num
  else if s = "ERROR" then Level.error.num
  else if s = "FATAl" then Level.fatal.num
  else 0

/-- Whether the logger set up by Configure, logger.go:80, writes an event: zerolog drops events below its level. -/
def writes (configured : String) (event : Level) : Bool := decide (parseLevel configured ≤ event.num)

end JT808
