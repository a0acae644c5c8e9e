import Verif.Lemmas.ExactPackets
import Verif.Props.Packets

/-!
Which packets of the server the client takes, and for what, exactly (C83).
-/

namespace MysqlCdc

open Spec

/-- **C83.** A greeting is taken exactly if it has the form of `LooseGreeting`, and then with the fields of that form. -/
theorem C83_greeting_iff {h : HandshakePacket} {packet : Bytes} : parseHandshake.run packet = .ok h ↔ LooseGreeting h packet :=
  exact_greeting.run h packet

/-- **C83.** An authentication switch request, after its first byte. -/
theorem C83_switch_iff {s : AuthPluginSwitchPacket} {body : Bytes} : parseAuthSwitch.run body = .ok s ↔ LooseSwitch s body :=
  exact_switch.run s body

/-- **C83.** An end-of-file packet, after its first byte. -/
theorem C83_eof_iff {e : EndOfFilePacket} {body : Bytes} : parseEndOfFile.run body = .ok e ↔ EofBody e body :=
  exact_eof.run e body

/-- **C83.** An error packet, after its first byte. -/
theorem C83_error_iff {e : ErrorPacket} {body : Bytes} : parseErrorPacket.run body = .ok e ↔ LooseError e body :=
  exact_errorPacket.run e body

/-- **C83.** A row of a result set. -/
theorem C83_row_iff {cells : List RStr} {packet : Bytes} : parseResultSetRow.run packet = .ok cells ↔ LooseRow cells packet :=
  exact_textRow.run cells packet

/-! ## The forms of the manual are among those taken -/

theorem C83_greeting_covers {h : HandshakePacket} {packet : Bytes} (hg : Greeting h packet) : LooseGreeting h packet :=
  C83_greeting_iff.1 (C53_greeting_decoded h packet hg)

theorem C83_switch_covers {s : AuthPluginSwitchPacket} {body : Bytes} (hs : SwitchBody s body) : LooseSwitch s body :=
  C83_switch_iff.1 (C54_switch_decoded s body hs)

theorem C83_error_covers {e : ErrorPacket} {body : Bytes} (he : ErrorBody e body) : LooseError e body :=
  C83_error_iff.1 (C54_error_decoded e body he)

/-! ## Examples -/

/-- A greeting of the manual. -/
example : ∃ h, LooseGreeting h ([10] ++ [53, 46, 55, 0] ++ [7, 0, 0, 0] ++ [65, 66, 67, 68, 69, 70, 71, 72, 0] ++ [0, 128] ++ [45] ++ [2, 0]
    ++ [8, 0] ++ [21] ++ [0, 0, 0, 0, 0, 0] ++ [0, 0, 0, 0] ++ [97, 98, 99, 100, 101, 102, 103, 104, 105, 106, 107, 108, 0]
    ++ [110, 97, 116, 105, 118, 101, 0]) ∧ h.scramble = "ABCDEFGHabcdefghijkl".toList ∧ h.authPluginName = "native".toList :=
  ⟨⟨10, "5.7".toList, 7, "ABCDEFGHabcdefghijkl".toList, 557056, 45, 2, List.replicate 6 '\x00', 21, "native".toList⟩,
    C83_greeting_iff.1 (by decide +kernel), rfl, rfl⟩

/-- Taken, though the end of the plugin name is cut off: its last character is lost. -/
example : parseAuthSwitch.run [97, 98, 99] = .ok ⟨['a', 'b'], []⟩ :=
  C83_switch_iff.2 ⟨[], [], .cut (by decide) (by decide), .cut (by decide) (by decide)⟩

/-- Not taken: text that is no UTF-8. -/
example (s : AuthPluginSwitchPacket) : ¬LooseSwitch s [0xFF, 0, 97, 0] := fun h => by
  have h := C83_switch_iff.2 h
  rw [show parseAuthSwitch.run [0xFF, 0, 97, 0] = .err .fromUtf8 by decide +kernel] at h
  cases h

/-- An error whose state is cut off. -/
example : LooseError ⟨1045, [], some ['2', '8']⟩ ([0x15, 0x04] ++ utf8Bytes ['#', '2', '8']) :=
  .marked (code := 1045) (state := ['2', '8']) (message := []) (by decide) (by decide)

/-- Two cells, the second empty. -/
example : LooseRow [['a', 'b'], []] [2, 97, 98, 0] := C83_row_iff.1 (by decide +kernel)

example : EofBody ⟨1, 2⟩ [1, 0, 2, 0] := C83_eof_iff.1 (by decide +kernel)

end MysqlCdc
