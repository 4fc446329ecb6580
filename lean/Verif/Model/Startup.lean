import Verif.Model.Config
/-
main.go, config.Load (internal/config/config.go:143-178) and logger.Configure (pkg/logger/logger.go:63-102): what becomes of
the server process when it is started.

Left out: what the file says in YAML (it is taken as read by viper), the flags other than -c, the rolling of log files, the
text of the banner.
-/
namespace JT808.Startup

/-- logConf, config.go:33-43, without the numbers that are handed to the library that rolls the files. -/
structure LogConf where
  console : Bool
  file : Bool
  json : Bool
  level : String
  dir : String
deriving DecidableEq

/-- servBanner, config.go:57-60. -/
structure BannerConf where
  enable : Bool
  path : String
deriving DecidableEq

/-- servPort, config.go:51-55. -/
structure PortConf where
  tcp : String
  udp : String
  http : String
deriving DecidableEq

/-- serverConf, config.go:45-49. A section that the file does not have is a nil pointer. -/
structure ServerConf where
  name : String
  port : Option PortConf
  banner : Option BannerConf
deriving DecidableEq

/-- DeviceGeoConf, config.go:88-93: whether its sections are there.  What they say is in Model/Datagen.lean. -/
structure GeoSections where
  geo : Bool
  location : Bool
  drive : Bool
deriving DecidableEq

/-- clientConf, config.go:62-73: the address, if there is a section `conn`, and whether there is a section `device`.  The section
`deviceParams` is read nowhere. -/
structure ClientConf where
  conn : Option String
  concurrency : Int
  device : Bool
  deviceGeo : Option GeoSections
deriving DecidableEq

/-- Config, config.go:132-136. -/
structure Conf where
  log : Option LogConf
  server : Option ServerConf
  client : Option ClientConf
deriving DecidableEq

/-- What viper makes of a file: it cannot be read or is no YAML, its values do not fit the struct (some may be set), or a
configuration. -/
inductive Content where
  | unreadable
  | misfit (part : Conf)
  | conf (c : Conf)

/-- Where the process is started: the files, the directories that can be made, the ports that can be had, and the two
configurations built into the program. -/
structure World where
  content : String → Content
  builtInServer : Conf
  builtInClient : Conf
  creatable : String → Bool
  free : String → Bool

/-- config and configOnce, config.go:138-141. -/
structure Loaded where
  once : Bool
  config : Option Conf

def Loaded.start : Loaded := ⟨false, none⟩

/-- `&Config{}`. -/
def Conf.empty : Conf := ⟨none, none, none⟩

/-- Load, config.go:143-178. sync.Once does not run the function again after a panic in it. `none` is a panic. The built-in
files are there (asset.go:193-197); their bytes are those of configs/default.yaml and test/client/configs/default.yaml. -/
def Loaded.load (w : World) (l : Loaded) (path : String) : Loaded × Option Conf :=
  if l.once then (l, l.config)
  else
    let content :=
      if path = "embedded-default-server-config" then .conf w.builtInServer
      else if path = "embedded-default-client-config" then .conf w.builtInClient
      else w.content path
    match content with
    | .unreadable => (⟨true, some Conf.empty⟩, none)
    | .misfit part => (⟨true, some part⟩, none)
    | .conf c => (⟨true, some c⟩, some c)

/-- Where an event goes. -/
inductive Writer where
  | stderr
  | file
  | nothing  -- a nil io.Writer, or a ConsoleWriter around one
deriving DecidableEq

/-- The writers of Configure, logger.go:64-76, and newRollingFile, 126-139: nil if the directory cannot be made. -/
def LogConf.writers (w : World) (c : LogConf) : List Writer :=
  (if c.console then [.stderr] else []) ++
  (if c.file then [if w.creatable c.dir then .file else .nothing] else [])

/-- What is visible of a start. `logged` is an event and the writers it reached. -/
inductive Said where
  | printed (what : String)
  | logged (level : Level) (what : String) (to : List Writer)
deriving DecidableEq

/-- How it ends: a panic that nobody recovers, os.Exit(1), or a running server with its two ports. -/
inductive Fate where
  | crash
  | exit1
  | up (tcp http : String)
deriving DecidableEq

/-- Writing an event: io.MultiWriter goes through the writers in order and calls Write of a nil one, which panics; in main
nobody recovers (routines.Recover is called, not deferred, main.go:18), and a goroutine of GoSafe logs the panic with the same
logger while recovering (safe.go:30-33). `none` is that panic. -/
def LogConf.write (w : World) (c : LogConf) (lv : Level) (what : String) : List Said × Bool :=
  if writes c.level lv then
    let ws := c.writers w
    if Writer.nothing ∈ ws then ([.logged lv what (ws.takeWhile (· != .nothing))], false) else ([.logged lv what ws], true)
  else ([], true)

/-- api.Run's end, api.go:93-101, and what main does after a successful Listen, main.go:47-51. gin's Run logs nothing with the
project's logger when it succeeds. The accept loop runs beside it. The port of the accept loop is taken by then; ports are
compared by name (0 and the empty name, for which the system picks a port, are left out). -/
def serveBoth (w : World) (c : LogConf) (p : PortConf) : List Said × Fate :=
  let (s, ok) := c.write w .debug "Listening and serving HTTP"
  if ok then
    if w.free p.http && p.http != p.tcp then (s, .up p.tcp p.http)
    else
      let (s', ok') := c.write w .error "Fail to run gin router"
      (s ++ s', if ok' then .exit1 else .crash)
  else (s, .crash)

/-- main.go:36-47: TCPServer.Listen, tcp_server.go:33-41, and what follows. -/
def listen (w : World) (c : LogConf) (p : PortConf) : List Said × Fate :=
  if w.free p.tcp then
    let (s, ok) := c.write w .debug "Listening"
    if ok then
      let (s', f) := serveBoth w c p
      (s ++ s', f)
    else (s, .crash)
  else
    let (s, ok) := c.write w .error "Fail to listen tcp addr"
    (s, if ok then .exit1 else .crash)

/-- main, main.go:17-52, of a process started with `-c path`. Reading a member of a nil section panics: ParseLogConf, config.go:
181-184, main.go:29 and 42. -/
def main (w : World) (path : String) : List Said × Fate :=
  let hello := [.printed ("Start with configuration " ++ path)]
  match (Loaded.start.load w path).2 with
  | none => (hello, .crash)
  | some conf =>
    match conf.log with
    | none => (hello, .crash)
    | some c =>
      let (s, ok) := c.write w .info "logging configured"
      if ok then
        match conf.server with
        | none => (hello ++ s, .crash)
        | some srv =>
          match srv.banner with
          | none => (hello ++ s, .crash)
          | some b =>
            let s := hello ++ s ++ (if b.enable then [.printed "banner"] else [])
            match srv.port with
            | none => (s, .crash)
            | some p =>
              let (s', f) := listen w c p
              (s ++ s', f)
      else (hello ++ s, .crash)

end JT808.Startup
