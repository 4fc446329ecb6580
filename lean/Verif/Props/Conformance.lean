import Verif.Model.Ring
import Verif.Model.Frame
import Verif.Model.Codec
import Verif.Model.Msgs
import Verif.Model.Params
import Verif.Model.Processor
import Verif.Props.Floats
import Verif.Props.Defaults
/-
The project's own unit tests, run on the model.  None of this proves a property: every example evaluates a
definition of the model on the input of a test of /repo and compares with the value the test wants from the Go
code.  A slip in transcribing one of these functions would show here.  Not repeated: tests that hold no cases
(tcp_server_test.go, most of header_test.go), tests of third-party tables (region_test.go) and of randomness
(datagen_test.go), and config_test.go, which reads a file through viper.
-/
namespace JT808.Conformance
open JT808 JT808.Spec

/-- `hex.Str2Byte` of a literal. -/
def hx (s : String) : List UInt8 := str2Byte (text s)

/-- GBK and UTF-8 as far as the tests go: ASCII, and the one character 京 (`be a9` and `e4 ba ac`). -/
def toUtf8 : List UInt8 → Option (List UInt8)
  | [] => some []
  | 0xbe :: 0xa9 :: rest => (toUtf8 rest).map ([0xe4, 0xba, 0xac] ++ ·)
  | b :: rest => if b < 0x80 then (toUtf8 rest).map (b :: ·) else none

/-- The other direction. -/
def toGbk : List UInt8 → Option (List UInt8)
  | [] => some []
  | 0xe4 :: 0xba :: 0xac :: rest => (toGbk rest).map ([0xbe, 0xa9] ++ ·)
  | b :: rest => if b < 0x80 then (toGbk rest).map (b :: ·) else none

/-- The environment of the tests. -/
def testEnv : Env := { goEnv with gbkDec := toUtf8, gbkEnc := toGbk }

/-- The plate 京A12345 in UTF-8. -/
def plate : Str := [0xe4, 0xba, 0xac] ++ text "A12345"

/-- gbk_test.go:19-25, 45-56. -/
example : testEnv.gbkDec [0xbe, 0xa9] = some [0xe4, 0xba, 0xac] ∧
    testEnv.gbkEnc [0xe4, 0xba, 0xac] = some [0xbe, 0xa9] ∧ testEnv.gbkEnc [230, 181] = none := by decide +kernel

/-- hash_test.go:18-22. -/
example : fnv32 (text "abcDEF") = 1099054474 := by decide +kernel

/-- hex_test.go:19-34. -/
example : str2Byte (text "123456789012") = [0x12, 0x34, 0x56, 0x78, 0x90, 0x12] ∧
    str2Byte (text "000000000002080301CD779E0728C032003C0000008F230125145158") =
      [0x00, 0x00, 0x00, 0x00, 0x00, 0x02, 0x08, 0x03, 0x01, 0xCD, 0x77, 0x9E, 0x07, 0x28, 0xC0, 0x32, 0x00, 0x3C,
       0x00, 0x00, 0x00, 0x8F, 0x23, 0x01, 0x25, 0x14, 0x51, 0x58] ∧
    str2Byte (text "12345678901") = [0x12, 0x34, 0x56, 0x78, 0x90] := by decide +kernel

/-- hex_test.go:53-57. -/
example : byte2Str [0x12, 0x34, 0x56, 0x78] = text "12345678" := by decide +kernel

/-- hex_test.go:76-85. -/
example : bcd2NumberStr [0x12, 0x34, 0x56, 0x78, 0x90, 0x12] = text "123456789012" ∧
    bcd2NumberStr [0x12, 0x34] = text "1234" := by decide +kernel

/-- hex_test.go:104-113. -/
example : numberStr2BCD (text "123456789012") = [0x12, 0x34, 0x56, 0x78, 0x90, 0x12] ∧
    numberStr2BCD (text "1234") = [0xff, 0xff, 0x12, 0x34] := by decide +kernel

/-- hex_test.go:133-146, 161-168. -/
example : readByte ⟨[0x9a], []⟩ 0 = .ok (154, 1) ∧ writeByte [] 0x9a = [0x9a] := by decide +kernel

/-- hex_test.go:360-374, 389-396. -/
example : readGBK testEnv 8 ⟨hx "BEA9413132333435", []⟩ 0 = .ok (plate, 8) ∧
    writeGBK testEnv [] plate = hx "BEA9413132333435" := by decide +kernel

/-- The header of msg_test.go:3-20. -/
def testHeader (id : UInt16) : Header :=
  ⟨id, ⟨0, 0, 0, 1, 0, .none, false, .v2019⟩, 1, text "12345678901234567890", 1, none⟩

/-- header_test.go:25-30, 49-53.  The decoder ends at position 17, which the test resets. -/
example : Header.decode ⟨hx "0100400001123456789012345678900001", []⟩ 0 = .ok (testHeader 0x0100, 17) ∧
    (testHeader 0x0100).encode = hx "0100400001123456789012345678900001" := by decide +kernel

/-- msg_0100_test.go:29-44. -/
example : writeHeader (testHeader 0x0100)
      (Register.encode testEnv .v2019
        ⟨31, 115, text "fakeyanss", text "fakeyanss.github.io", text "1234ABCD", 1, plate, []⟩) =
    hx ("0100405401123456789012345678900001001f007366616b6579616e" ++
      "7373000066616b6579616e73732e6769746875622e696f0000000000000000000000313233" ++
      "34414243440000000000000000000000000000000000000000000001bea9413132333435") := by decide +kernel

/-- msg_8004_test.go:13, 24-32. -/
example : writeHeader (testHeader 0x8004) (serverTimeEncode ⟨2023, 3, 1, 12, 34, 56⟩) =
    hx "8004400601123456789012345678900001230301123456" := by decide +kernel

/-- msg_8100_test.go:24-34. -/
example : writeHeader (testHeader 0x8100) (RegisterAck.encode ⟨0, 0, text "test"⟩) =
    hx "810040070112345678901234567890000100000074657374" := by decide +kernel

/-- device_params_test.go:25-37. -/
example : DeviceParams.decode testEnv [] 0 ⟨[], []⟩ 0 = .ok (⟨[], 0, []⟩, 0) := by rfl

/-- device_test.go:19-31: the literals 116.307629 and 40.058359 are the floats the division gives. -/
example : (f64div 116307629 locationAccuracy).Same (Decimal.parse ⟨116307629, -6⟩) ∧
    (f64div 40058359 locationAccuracy).Same (Decimal.parse ⟨40058359, -6⟩) := by
  unfold F64.Same; decide +kernel

/-- packet_codec_test.go:24-32: the checksum does not fit. -/
example : (decodeFrame testEnv
    (hx "7E0200001c2234567890150000000000000002080301cd48b50728d22b003902bc008f2301251438137d027E")).isOk = false := by
  decide +kernel

/-- packet_codec_test.go:34-60.  The test wants 126 as the check code: it is the closing 7e (claim C10). -/
example : (match decodeFrame testEnv
      (hx "7E0200001C2234567890150000000000000002080301CD779E0728C032003C0000008F230125145158FB7E") with
    | .ok p => some (p.header, p.body.data, p.verifyCode, p.segCompleted)
    | _ => none) =
    some (⟨0x0200, ⟨28, 0, 0, 0, 0, .none, false, .v2013⟩, 0, text "223456789015", 0, none⟩,
      hx "000000000002080301CD779E0728C032003C0000008F230125145158", 126, false) := by decide +kernel

/-- packet_codec_test.go:86-90. -/
example : genVerifier (hx "000140050100000000017299841738ffff007b01c803") =
    hx "000140050100000000017299841738ffff007b01c803" ++ [0xb5] := by decide +kernel

/-- The loop of frame_handler_test.go:138-146: as many calls of Recv as frames are wanted. -/
def frames (e : Err) : Nat → List UInt8 → List (Res (List UInt8))
  | 0, _ => []
  | n + 1, stream => (recv e stream).1 :: frames e n (recv e stream).2

/-- One case of frame_handler_test.go. -/
def gives (stream : String) (want : List String) : Bool :=
  decide (frames .eof want.length (hx stream) = want.map fun w => Res.ok (hx w))

/-- frame_handler_test.go:23-127. -/
example :
    gives "7e5622664455e2447e549955777e1122334455668899557e" ["7e5622664455e2447e", "7e1122334455668899557e"] ∧
    gives "7e5622664455e2447e549955777e112233445566889955" ["7e5622664455e2447e"] ∧
    gives "55667e5622664455e2447e7e1122334455668899557e44" ["7e5622664455e2447e", "7e1122334455668899557e"] ∧
    gives "55667e5622664455e2447e7e1122334455668899557e" ["7e5622664455e2447e", "7e1122334455668899557e"] ∧
    gives "7e5622664455e2447e7e1122334455668899557e44" ["7e5622664455e2447e", "7e1122334455668899557e"] ∧
    gives "7e5622664455e2447e7e1122334455668899557e" ["7e5622664455e2447e", "7e1122334455668899557e"] ∧
    gives "557e1122334455668899557e44" ["7e1122334455668899557e"] ∧
    gives "55447e1122334455668899557e" ["7e1122334455668899557e"] ∧
    gives "7e1122334455668899557e44" ["7e1122334455668899557e"] ∧
    gives "7e1122334455668899557e" ["7e1122334455668899557e"] := by decide +kernel

/-- frame_handler_test.go:128-134.  The test wants an error but never calls Recv; the model gives it. -/
example : (recv .eof (hx "1122334455668899557e")).1 = .err .eof := by decide +kernel

/-- ring_buffer_test.go:25-36. -/
example : (Ring.new 5 : Ring Nat) = ⟨5, [none, none, none, none, none], 0, 0⟩ := by decide +kernel

/-- ring_buffer_test.go:54-69. -/
example : (match (Ring.new 10 : Ring Nat).write (some 1) with
    | .ok r => some (r.writer, r.cont[0]?, (match r.write (some 2) with
        | .ok r' => some (r'.writer, r'.cont[1]?)
        | _ => none))
    | _ => none) = some (1, some (some 1), some (2, some (some 2))) := by decide +kernel

/-- ring_buffer_test.go:90-97; the model has only the step of one, which is what Read takes. -/
example : (Ring.new 5 : Ring Nat).seek1.reader = 1 ∧ (Ring.new 5 : Ring Nat).seek1.seek1.seek1.reader = 3 := by
  decide +kernel

/-- ring_buffer_test.go:218-230. -/
example : (match (Ring.new 2 : Ring Nat).write (some 2) with
    | .ok r => match r.write (some 3) with
      | .ok r => match r.write (some 4) with
        | .ok r => match r.read with
          | .ok (a, r) => match r.read with
            | .ok (b, _) => some (a, b)
            | _ => none
          | _ => none
        | _ => none
      | _ => none
    | _ => none) = some (some 4, some 3) := by decide +kernel

end JT808.Conformance
