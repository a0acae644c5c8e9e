import Verif.Spec.Packets
import Verif.Spec.TableMap
import Verif.Spec.Accepted
/-!
# Which packets of the server the client takes, and for what

The formats of `Spec/Packets` with every condition dropped that the client does not look at.
-/

namespace MysqlCdc.Spec

/-- A string at the start of `bytes`, with `rest` behind it. It ends with the first zero byte. If there is none, everything is taken
and the last byte (if any) dropped, as if it were the zero. -/
inductive ZeroEnded : RStr → (bytes rest : Bytes) → Prop where
  | zero {s : RStr} {e rest : Bytes} (h : NullTerm s e) : ZeroEnded s (e ++ rest) rest
  | cut {s : RStr} {bytes : Bytes} (h0 : (0 : UInt8) ∉ bytes) (h : bytes.dropLast = utf8Bytes s) : ZeroEnded s bytes []

/-- Protocol::HandshakeV10. The parts of the scramble may have any length, the filler any text of six bytes; the second part of the
scramble and the plugin name may be cut or missing. -/
inductive LooseGreeting : HandshakePacket → Bytes → Prop where
  | mk {protocol id caps collation status length : Nat} {version scramble1 scramble2 filler plugin : RStr} {t1 t2 t3 t4 t5 : Bytes}
      (h1 : protocol < 2 ^ 8) (h2 : ZeroEnded version t1 (le 4 id ++ t2)) (h3 : id < 2 ^ 32)
      (h4 : ZeroEnded scramble1 t2 (le 2 (caps % 2 ^ 16) ++ le 1 collation ++ le 2 status ++ le 2 (caps / 2 ^ 16 % 2 ^ 16) ++
        le 1 length ++ utf8Bytes filler ++ le 4 (caps / 2 ^ 32) ++ t3))
      (h5 : caps < 2 ^ 64) (h6 : collation < 2 ^ 8) (h7 : status < 2 ^ 16) (h8 : length < 2 ^ 8) (h9 : (utf8Bytes filler).length = 6)
      (h10 : if hasBit caps 15 then ZeroEnded scramble2 t3 t4 else scramble2 = [] ∧ t4 = t3)
      (h11 : if hasBit caps 19 then ZeroEnded plugin t4 t5 else plugin = [] ∧ t5 = t4) :
      LooseGreeting ⟨protocol, version, id, scramble1 ++ scramble2, caps, collation, status, filler, length, plugin⟩ (le 1 protocol ++ t1)

/-- Authentication switch request, after its first byte. -/
def LooseSwitch (s : AuthPluginSwitchPacket) (body : Bytes) : Prop :=
  ∃ t1 t2, ZeroEnded s.authPluginName body t1 ∧ ZeroEnded s.authPluginData t1 t2

/-- ERR_Packet, after its first byte. Less than five characters of state are taken when the message ends there. -/
inductive LooseError : ErrorPacket → Bytes → Prop where
  | marked {code : Nat} {state message : RStr} (h1 : code < 2 ^ 16) (h2 : state.length = 5 ∨ state.length < 5 ∧ message = []) :
      LooseError ⟨code, message, some state⟩ (le 2 code ++ utf8Bytes ('#' :: state ++ message))
  | unmarked {code : Nat} {message : RStr} (h1 : code < 2 ^ 16) (h2 : message.head? ≠ some '#') :
      LooseError ⟨code, message, none⟩ (le 2 code ++ utf8Bytes message)

/-- A row of a result set: length-encoded strings, no NULL. -/
def LooseRow (cells : List RStr) (body : Bytes) : Prop := Each Text cells body

end MysqlCdc.Spec
