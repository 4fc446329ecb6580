import Verif.Model.Msgs
/-
internal/codec/region/region.go.  The package GB2260.go is not in the sandbox; its table is taken to be any list of codes
and names, and `Get` to return the division whose code is the one asked for, nil if there is none.
-/
namespace JT808

/-- `gb`, region.go:9: the codes of the divisions and their names. -/
abbrev RegionTable := List (Str × Str)

/-- "NotFound", region.go:7. -/
def codeNotFound : Str := [0x4e, 0x6f, 0x74, 0x46, 0x6f, 0x75, 0x6e, 0x64]

/-- Parse, region.go:18-27, the name in its result. -/
def regionParse (t : RegionTable) (code : Str) : Str :=
  match t.lookup code with
  | none => codeNotFound
  | some name => name

/-- The environment whose names of regions are those of the table; what msg_0100.go:58 uses. -/
def Env.withRegions (env : Env) (t : RegionTable) : Env := { env with region := regionParse t }

end JT808
