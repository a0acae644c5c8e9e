import Verif.Model.Basic
/-!
# UTF-8

Model of `String::from_utf8` / `str::from_utf8` (core::str::validations): the accepted byte sequences are those of
RFC 3629 (no overlong forms, no surrogates, at most U+10FFFF).
-/

namespace MysqlCdc

/-- Continuation byte `80..BF`. -/
def isCont (b : UInt8) : Bool := 0x80 ≤ b.toNat && b.toNat ≤ 0xBF

/-- Allowed second byte after the first byte of a three-byte form. -/
def ok3 (b0 b1 : UInt8) : Bool :=
  (b0.toNat == 0xE0 && 0xA0 ≤ b1.toNat && b1.toNat ≤ 0xBF)
  || (0xE1 ≤ b0.toNat && b0.toNat ≤ 0xEC && 0x80 ≤ b1.toNat && b1.toNat ≤ 0xBF)
  || (b0.toNat == 0xED && 0x80 ≤ b1.toNat && b1.toNat ≤ 0x9F)
  || (0xEE ≤ b0.toNat && b0.toNat ≤ 0xEF && 0x80 ≤ b1.toNat && b1.toNat ≤ 0xBF)

/-- Allowed second byte after the first byte of a four-byte form. -/
def ok4 (b0 b1 : UInt8) : Bool :=
  (b0.toNat == 0xF0 && 0x90 ≤ b1.toNat && b1.toNat ≤ 0xBF)
  || (0xF1 ≤ b0.toNat && b0.toNat ≤ 0xF3 && 0x80 ≤ b1.toNat && b1.toNat ≤ 0xBF)
  || (b0.toNat == 0xF4 && 0x80 ≤ b1.toNat && b1.toNat ≤ 0x8F)

/-- `String::from_utf8` (std), used in src/extensions.rs:50,65 and src/events/format_description_event.rs:38. -/
def utf8Decode : Bytes → Option RStr
  | [] => some []
  | b0 :: t =>
    if b0.toNat < 0x80 then (utf8Decode t).map (Char.ofNat b0.toNat :: ·)
    else match t with
      | [] => none
      | b1 :: t1 =>
        if 0xC2 ≤ b0.toNat && b0.toNat ≤ 0xDF then
          if isCont b1 then
            (utf8Decode t1).map (Char.ofNat ((b0.toNat % 32) * 64 + b1.toNat % 64) :: ·)
          else none
        else match t1 with
          | [] => none
          | b2 :: t2 =>
            if ok3 b0 b1 then
              if isCont b2 then
                (utf8Decode t2).map
                  (Char.ofNat ((b0.toNat % 16) * 4096 + (b1.toNat % 64) * 64 + b2.toNat % 64) :: ·)
              else none
            else match t2 with
              | [] => none
              | b3 :: t3 =>
                if ok4 b0 b1 && isCont b2 && isCont b3 then
                  (utf8Decode t3).map
                    (Char.ofNat ((b0.toNat % 8) * 262144 + (b1.toNat % 64) * 4096 + (b2.toNat % 64) * 64
                      + b3.toNat % 64) :: ·)
                else none

/-- `str::as_bytes`: the UTF-8 bytes of a string (Lean core's encoder of one character). -/
def utf8Bytes (s : RStr) : Bytes := s.flatMap String.utf8EncodeChar

end MysqlCdc
