import Verif.Model.Memory
/-!
# What decoding an event may ask of the allocator

The sizes are those of the buffers that the decoder makes before it knows whether the bytes for them are there. An event with `n` bytes may ask for `n` bytes in
all; bitmaps and column counts make it up to nine times as much, as one byte stands for eight columns. A row event also makes room for all columns of the table in
each row, however few the row has.
-/

namespace MysqlCdc.Spec

/-- The number of columns of the table that the row event names in its first six bytes, if a table map for it was read. -/
def namedColumns (cache : TableMapCache) (body : Bytes) : Nat :=
  match cache.get? (leVal (body.take 6)) with
  | some table => table.columnTypes.length
  | none => 0

/-- What an event of type `code` with `n` bytes may ask for, if the vector of one row of the table takes `row` bytes. -/
def allowance (code n row : Nat) : Nat :=
  if code = 19 then 9 * n
  else if code = 23 ∨ code = 25 ∨ code = 30 ∨ code = 32 then 8 * n + row * (n + 1)
  else if code = 24 ∨ code = 31 then 8 * n + 2 * row * (n + 1)
  else n

/-- The requests of an event add up to no more than `bound`, but for one: the last may be of any size if the event then ends too early for it and is refused. -/
inductive WithinAllowance (bound : Nat) (result : Res BinlogEvent) : List Nat → Prop
  | paid {sizes : List Nat} (h : sizes.sum ≤ bound) : WithinAllowance bound result sizes
  | short {sizes : List Nat} {last : Nat} (h : sizes.sum ≤ bound) (hr : result = .err (.io .unexpectedEof)) :
    WithinAllowance bound result (sizes ++ [last])

end MysqlCdc.Spec
