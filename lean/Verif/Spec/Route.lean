import Verif.Model.Route
/-
The interface over HTTP: which requests ask for what (README and the comments of internal/api/api.go), and how a path is written in
a request (RFC 3986, 2.1).
-/
namespace JT808.Spec

/-- The hexadecimal digit `c` stands for `v`. -/
def HexDigitOf (c v : UInt8) : Prop :=
  v < 16 ∧ ("0123456789abcdef".toUTF8.toList[v.toNat]? = some c ∨ "0123456789ABCDEF".toUTF8.toList[v.toNat]? = some c)

/-- Not a control character. -/
def Visible (c : UInt8) : Prop := 0x20 ≤ c ∧ c ≠ 0x7f

/-- The text `raw` writes the path: every byte as it is (but for the percent sign, the question mark and control characters) or
as a percent sign and two hexadecimal digits. -/
inductive Writes : List UInt8 → List UInt8 → Prop
  | nil : Writes [] []
  | plain {c raw path} : Visible c → c ≠ 0x25 → c ≠ 0x3f → Writes raw path → Writes (c :: raw) (c :: path)
  | escaped {a b x y raw path} : HexDigitOf a x → HexDigitOf b y → Writes raw path →
      Writes (0x25 :: a :: b :: raw) ((x * 16 + y) :: path)

/-- The target of a request writes the path; there may be a query after it. -/
def IsTarget (target path : List UInt8) : Prop :=
  ∃ raw, Writes raw path ∧ (target = raw ∨ ∃ query, target = raw ++ 0x3f :: query ∧ ∀ c ∈ query, Visible c)

/-- The request asks for the operation, of the terminal with that number. -/
inductive AsksFor : HttpMethod → List UInt8 → Handler → List UInt8 → Prop
  | list : AsksFor .get "/device".toUTF8.toList .list []
  | geo {p} : 0x2f ∉ p → AsksFor .get ("/device/".toUTF8.toList ++ p ++ "/geo".toUTF8.toList) .geo p
  | query {p} : 0x2f ∉ p → AsksFor .get ("/device/".toUTF8.toList ++ p ++ "/params".toUTF8.toList) .query p
  | set {p} : 0x2f ∉ p → AsksFor .put ("/device/".toUTF8.toList ++ p ++ "/params".toUTF8.toList) .set p

end JT808.Spec
