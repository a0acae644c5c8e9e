import Verif.Spec.Frames
/-!
# Packets on a connection that takes them piecemeal

What the operating system does with the writes of a connection is a list of steps: a call takes at most so many bytes, or fails. Calls
after the end of the list take everything.
-/

namespace MysqlCdc.Spec

/-- Writing until all of `bs` is taken succeeds; `ws'` are the steps that are left. -/
inductive TakesAll : (ws : List WriteStep) → (bs : Bytes) → (ws' : List WriteStep) → Prop where
  | nothing {ws : List WriteStep} : TakesAll ws [] ws
  | whole {bs : Bytes} (hb : bs ≠ []) : TakesAll [] bs []
  | part {n : Nat} {ws ws' : List WriteStep} {bs : Bytes} (hb : bs ≠ []) (hn : 0 < n) (h : TakesAll ws (bs.drop n) ws') :
      TakesAll (.accept n :: ws) bs ws'

/-- Writing until all of `bs` is taken fails with `k` when `taken` has been taken: a call fails, or takes nothing. -/
inductive Refuses : (ws : List WriteStep) → (bs taken : Bytes) → (k : IoKind) → (ws' : List WriteStep) → Prop where
  | fail {k : IoKind} {ws : List WriteStep} {bs : Bytes} (hb : bs ≠ []) : Refuses (.fail k :: ws) bs [] k ws
  | zero {ws : List WriteStep} {bs : Bytes} (hb : bs ≠ []) : Refuses (.accept 0 :: ws) bs [] (.other 0) ws
  | part {n : Nat} {ws ws' : List WriteStep} {bs taken : Bytes} {k : IoKind} (hb : bs ≠ []) (hn : 0 < n)
      (h : Refuses ws (bs.drop n) taken k ws') : Refuses (.accept n :: ws) bs (bs.take n ++ taken) k ws'

/-- One call for `bs` takes `taken`. -/
inductive Takes : (ws : List WriteStep) → (bs taken : Bytes) → (ws' : List WriteStep) → Prop where
  | whole {bs : Bytes} : Takes [] bs bs []
  | part {n : Nat} {ws : List WriteStep} {bs : Bytes} : Takes (.accept n :: ws) bs (bs.take n) ws

/-- A packet is carried: length and number whole, of the payload what one call takes. -/
inductive CarriesOne (ws : List WriteStep) (p : Bytes) (n : Nat) : (wire : Bytes) → (ws' : List WriteStep) → Prop where
  | mk {ws1 ws2 ws3 : List WriteStep} {taken : Bytes} (h1 : TakesAll ws (le 3 p.length) ws1) (h2 : TakesAll ws1 (le 1 n) ws2)
      (h3 : Takes ws2 p taken ws3) : CarriesOne ws p n (le 3 p.length ++ le 1 n ++ taken) ws3

/-- Packets are carried. -/
inductive Carries : (ws : List WriteStep) → (sent : List (Bytes × Nat)) → (wire : Bytes) → (ws' : List WriteStep) → Prop where
  | nil {ws : List WriteStep} : Carries ws [] [] ws
  | snoc {ws ws1 ws2 : List WriteStep} {sent : List (Bytes × Nat)} {p wire wire' : Bytes} {n : Nat} (h : Carries ws sent wire ws1)
      (h1 : CarriesOne ws1 p n wire' ws2) : Carries ws (sent ++ [(p, n)]) (wire ++ wire') ws2

/-- The connection breaks within a packet with the error `k`. -/
inductive Breaks (ws : List WriteStep) (p : Bytes) (n : Nat) : (wire : Bytes) → (k : IoKind) → (ws' : List WriteStep) → Prop where
  | length {ws' : List WriteStep} {taken : Bytes} {k : IoKind} (h : Refuses ws (le 3 p.length) taken k ws') : Breaks ws p n taken k ws'
  | number {ws1 ws' : List WriteStep} {taken : Bytes} {k : IoKind} (h1 : TakesAll ws (le 3 p.length) ws1)
      (h : Refuses ws1 (le 1 n) taken k ws') : Breaks ws p n (le 3 p.length ++ taken) k ws'
  | payload {ws1 ws' : List WriteStep} {k : IoKind} (h1 : TakesAll ws (le 3 p.length) ws1)
      (h2 : TakesAll ws1 (le 1 n) (.fail k :: ws')) : Breaks ws p n (le 3 p.length ++ le 1 n) k ws'

end MysqlCdc.Spec
