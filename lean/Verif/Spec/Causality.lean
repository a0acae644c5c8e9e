import Verif.Model.Session
/-!
# A client and somebody at the other end who answers

The model gives a client a script of what it will be sent. Here somebody at the other end decides what to send by what they have
been sent.
-/

namespace MysqlCdc.Spec

/-- The same connection on which the other side sends `more` as well, before reading fails, and fails in another way. -/
def Channel.andThen (ch : Channel) (more : Bytes) (ending : IoKind) (later : List (Bytes × IoKind)) : Channel :=
  { ch with input := ch.input ++ more, ending, later }

def Sess.andThen (s : Sess) (more : Bytes) (ending : IoKind) (later : List (Bytes × IoKind)) : Sess :=
  { s with chan := Channel.andThen s.chan more ending later }

/-- What the same code comes to (`r2`) when the other side sends more than in the run that ended with `r`. -/
inductive Foreseen {α : Type} (more : Bytes) (ending : IoKind) (later : List (Bytes × IoKind)) (r r2 : Res α × Sess) : Prop where
  /-- The same, and `more` is still to be read. -/
  | same (h : r2 = (r.1, Sess.andThen r.2 more ending later))
  /-- The first run failed waiting for a packet, and this one does, too. -/
  | waits (h : r.1 = .err (.io r.2.chan.ending)) (h2 : r2.1 = .err (.io ending)) (hc : r2.2.client = r.2.client)
      (ho : r2.2.chan.output = r.2.chan.output) (ht : r2.2.chan.trace = r.2.chan.trace)
  /-- The first run failed waiting for a packet; this one reads it and goes on. What it writes beyond the first it writes in packets sent later. -/
  | goesOn (h : r.1 = .err (.io r.2.chan.ending)) (ho : r.2.chan.output <+: r2.2.chan.output) (n : Nat) (q : Bytes) (t : List Packet)
      (ht : r2.2.chan.trace = r.2.chan.trace ++ .received n q :: t)
      (hw : r2.2.chan.output ≠ r.2.chan.output → ∃ k p, Packet.sent k p ∈ t)

/-- The number of packets sent. -/
def sentCount : List Packet → Nat
  | [] => 0
  | .sent _ _ :: t => sentCount t + 1
  | .received _ _ :: t => sentCount t

/-- Somebody at the other end: all they have sent by the time they have been sent `bytes`. -/
structure Peer where
  sends : Bytes → Bytes
  grows : ∀ a b, a <+: b → sends a <+: sends b

/-- What they have sent after some rounds with a client that writes `client x` in all when it is sent `x`. -/
def Peer.rounds (peer : Peer) (client : Bytes → Bytes) : Nat → Bytes
  | 0 => []
  | n + 1 => peer.sends (client (peer.rounds client n))

end MysqlCdc.Spec
