import Verif.Model.Basic

/-!
# Loop positions

Model of `interpolation/tempita/_looper.py`. `None` is `none`. A getter (L137-168: attribute name, function, key or index) is
a function; without a getter, `_compare_group` compares the items themselves, L158-159.
-/

namespace Interp.Looper

variable {α β : Type}

/-- `loop_pos`, L67-70. -/
structure LoopPos (α : Type) where
  seq : List α
  pos : ℕ

/-- `looper_iter.__next__`, L54-61, from position `pos` with `n` items left. -/
def iterFrom (seq : List α) : ℕ → ℕ → Py (List (LoopPos α × α))
  | _, 0 => .ok []
  | pos, n + 1 =>
    match seq[pos]? with
    | none => .error .index
    | some x => do
      let r ← iterFrom seq (pos + 1) n
      pure ((⟨seq, pos⟩, x) :: r)

/-- All values of `looper(seq)`, L27-61: ends when `pos >= len(seq)`. -/
def looper (seq : List α) : Py (List (LoopPos α × α)) := iterFrom seq 0 seq.length

/-- `index`, L75-78. -/
def LoopPos.index (l : LoopPos α) : ℕ := l.pos
/-- `number`, L80-83. -/
def LoopPos.number (l : LoopPos α) : ℕ := l.pos + 1
/-- `item`, L85-88. -/
def LoopPos.item (l : LoopPos α) : Py α :=
  match l.seq[l.pos]? with
  | some x => .ok x
  | none => .error .index
/-- `__next__`, L90-96. -/
def LoopPos.next (l : LoopPos α) : Option α := l.seq[l.pos + 1]?
/-- `previous`, L101-106. -/
def LoopPos.previous (l : LoopPos α) : Py (Option α) :=
  if l.pos = 0 then .ok none
  else match l.seq[l.pos - 1]? with
    | some x => .ok (some x)
    | none => .error .index
/-- `odd`, L108-111. -/
def LoopPos.odd (l : LoopPos α) : Bool := !(l.pos % 2 != 0)
/-- `even`, L113-116: an integer, used as a truth value. -/
def LoopPos.even (l : LoopPos α) : ℕ := l.pos % 2
/-- `first`, L118-121. -/
def LoopPos.first (l : LoopPos α) : Bool := l.pos == 0
/-- `last`, L123-126. -/
def LoopPos.last (l : LoopPos α) : Bool := (l.pos : ℤ) == (l.seq.length : ℤ) - 1
/-- `length`, L128-131. -/
def LoopPos.length (l : LoopPos α) : ℕ := l.seq.length
/-- `first_group(getter)`, L133-142. -/
def LoopPos.firstGroup [DecidableEq β] (getter : α → β) (l : LoopPos α) : Py Bool :=
  if l.first then .ok true
  else do
    let item ← l.item
    match ← l.previous with
    | some other => pure (getter item != getter other)
    | none => throw .typeErr
/-- `last_group(getter)`, L144-153. -/
def LoopPos.lastGroup [DecidableEq β] (getter : α → β) (l : LoopPos α) : Py Bool :=
  if l.last then .ok true
  else do
    let item ← l.item
    match l.next with
    | some other => pure (getter item != getter other)
    | none => throw .typeErr

end Interp.Looper
