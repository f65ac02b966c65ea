import Verif.Proofs.PyLines

/-!
# Names of the variables of the generated code
-/

namespace Interp.PyParse
open Interp.Spec.PyLang

/-- Variables that belong to a dimension. -/
inductive DKey where
  | a | b | n | delta | gc | N | x | idx | lam | phi (l j : ℕ)
  deriving DecidableEq

/-- Names taken from the context. -/
inductive Glob where
  | none | max | min | int | floor | range | zeros | np | Cd | dCd | allocateOutput
  deriving DecidableEq

/-- Variables. -/
inductive Key where
  | dim (i : ℕ) (k : DKey)
  | u (i : ℕ) | mu (i j : ℕ) | val (v : Str)
  | nVals | out | ix | nn | npts | grid | C | points | valTmp | kk | diff | mode
  | glob (g : Glob)
  deriving DecidableEq

abbrev dg (n : ℕ) : Str := Nat.toDigits 10 n

def nameOf : Key → Str
  | .dim i .a => 'a' :: '_' :: dg i
  | .dim i .b => 'b' :: '_' :: dg i
  | .dim i .n => 'n' :: '_' :: dg i
  | .dim i .delta => 'δ' :: '_' :: dg i
  | .dim i .gc => 'g' :: 'c' :: '_' :: dg i
  | .dim i .N => 'N' :: '_' :: dg i
  | .dim i .x => 'x' :: '_' :: dg i
  | .dim i .idx => 'i' :: '_' :: dg i
  | .dim i .lam => 'λ' :: '_' :: dg i
  | .dim i (.phi 0 j) => 'Φ' :: '_' :: (dg i ++ '_' :: dg j)
  | .dim i (.phi 1 j) => 'd' :: '_' :: 'Φ' :: '_' :: (dg i ++ '_' :: dg j)
  | .dim i (.phi (l + 2) j) => 'd' :: '_' :: (dg (l + 2) ++ '_' :: 'Φ' :: '_' :: (dg i ++ '_' :: dg j))
  | .u i => 'u' :: '_' :: dg i
  | .mu i j => 'μ' :: '_' :: (dg i ++ '_' :: dg j)
  | .val v => 'v' :: 'a' :: 'l' :: '_' :: v
  | .nVals => ['n', '_', 'v', 'a', 'l', 's']
  | .out => ['o', 'u', 't']
  | .ix => ['i', '_', 'x']
  | .nn => ['n', 'n']
  | .npts => ['N']
  | .grid => ['g', 'r', 'i', 'd']
  | .C => ['C']
  | .points => ['p', 'o', 'i', 'n', 't', 's']
  | .valTmp => ['v', 'a', 'l']
  | .kk => ['k']
  | .diff => ['d', 'i', 'f', 'f']
  | .mode => ['e', 'x', 't', 'r', 'a', 'p', '_', 'm', 'o', 'd', 'e']
  | .glob .none => ['N', 'o', 'n', 'e']
  | .glob .max => ['m', 'a', 'x']
  | .glob .min => ['m', 'i', 'n']
  | .glob .int => ['i', 'n', 't']
  | .glob .floor => ['f', 'l', 'o', 'o', 'r']
  | .glob .range => ['r', 'a', 'n', 'g', 'e']
  | .glob .zeros => ['z', 'e', 'r', 'o', 's']
  | .glob .np => ['n', 'p']
  | .glob .Cd => ['C', 'd']
  | .glob .dCd => ['d', 'C', 'd']
  | .glob .allocateOutput => ['a', 'l', 'l', 'o', 'c', 'a', 't', 'e', '_', 'o', 'u', 't', 'p', 'u', 't']

/-- The parts of a name between underscores. -/
def segs : Str → List Str
  | [] => [[]]
  | c :: s =>
    if c = '_' then [] :: segs s
    else match segs s with
      | [] => [[c]]
      | w :: ws => (c :: w) :: ws

theorem segs_ne (s : Str) : segs s ≠ [] := by
  cases s with
  | nil => simp [segs]
  | cons c s =>
    unfold segs
    split_ifs
    · simp
    · split <;> simp

theorem segs_app {w : Str} (h : '_' ∉ w) (r : Str) : segs (w ++ '_' :: r) = w :: segs r := by
  induction w with
  | nil => simp [segs]
  | cons c w ih =>
    simp only [List.mem_cons, not_or] at h
    rw [List.cons_append, segs, if_neg (Ne.symm h.1), ih h.2]

theorem segs_one {w : Str} (h : '_' ∉ w) : segs w = [w] := by
  induction w with
  | nil => rfl
  | cons c w ih =>
    simp only [List.mem_cons, not_or] at h
    rw [segs, if_neg (Ne.symm h.1), ih h.2]

theorem under_dg (n : ℕ) : '_' ∉ dg n := fun h => by
  have := digits_all h; simp at this

theorem segs_dg (n : ℕ) : segs (dg n) = [dg n] := segs_one (under_dg n)

theorem segs_dg_app (n : ℕ) (r : Str) : segs (dg n ++ '_' :: r) = dg n :: segs r := segs_app (under_dg n) r

/-- The variable with a given name. -/
def keyOf (s : Str) : Option Key :=
  if s.take 4 = ['v', 'a', 'l', '_'] then some (.val (s.drop 4))
  else if s = nameOf .nVals then some .nVals
  else if s = nameOf .out then some .out
  else if s = nameOf .ix then some .ix
  else if s = nameOf .nn then some .nn
  else if s = nameOf .npts then some .npts
  else if s = nameOf .grid then some .grid
  else if s = nameOf .C then some .C
  else if s = nameOf .points then some .points
  else if s = nameOf .valTmp then some .valTmp
  else if s = nameOf .kk then some .kk
  else if s = nameOf .diff then some .diff
  else if s = nameOf .mode then some .mode
  else if s = nameOf (.glob .none) then some (.glob .none)
  else if s = nameOf (.glob .max) then some (.glob .max)
  else if s = nameOf (.glob .min) then some (.glob .min)
  else if s = nameOf (.glob .int) then some (.glob .int)
  else if s = nameOf (.glob .floor) then some (.glob .floor)
  else if s = nameOf (.glob .range) then some (.glob .range)
  else if s = nameOf (.glob .zeros) then some (.glob .zeros)
  else if s = nameOf (.glob .np) then some (.glob .np)
  else if s = nameOf (.glob .Cd) then some (.glob .Cd)
  else if s = nameOf (.glob .dCd) then some (.glob .dCd)
  else if s = nameOf (.glob .allocateOutput) then some (.glob .allocateOutput)
  else match segs s with
    | [['a'], i] => some (.dim (decode i) .a)
    | [['b'], i] => some (.dim (decode i) .b)
    | [['n'], i] => some (.dim (decode i) .n)
    | [['δ'], i] => some (.dim (decode i) .delta)
    | [['g', 'c'], i] => some (.dim (decode i) .gc)
    | [['N'], i] => some (.dim (decode i) .N)
    | [['x'], i] => some (.dim (decode i) .x)
    | [['i'], i] => some (.dim (decode i) .idx)
    | [['λ'], i] => some (.dim (decode i) .lam)
    | [['Φ'], i, j] => some (.dim (decode i) (.phi 0 (decode j)))
    | [['d'], ['Φ'], i, j] => some (.dim (decode i) (.phi 1 (decode j)))
    | [['d'], l, ['Φ'], i, j] => some (.dim (decode i) (.phi (decode l) (decode j)))
    | [['u'], i] => some (.u (decode i))
    | [['μ'], i, j] => some (.mu (decode i) (decode j))
    | _ => none

theorem dg_head (n : ℕ) : ∃ c r, dg n = c :: r ∧ c.isDigit = true := digits_cons n

theorem keyOf_nameOf (k : Key) : keyOf (nameOf k) = some k := by
  have hd : ∀ n : ℕ, decode (dg n) = n := decode_digits
  have hx : ∀ n : ℕ, dg n ≠ ['x'] := fun n h => by
    have h' : 'x' ∈ dg n := by rw [h]; simp
    have := digits_all h'; simp at this
  have hv : ∀ n : ℕ, dg n ≠ ['v', 'a', 'l', 's'] := fun n h => by
    have h' : 'v' ∈ dg n := by rw [h]; simp
    have := digits_all h'; simp at this
  cases k with
  | dim i k =>
    cases k with
    | phi l j =>
      match l with
      | 0 => simp [keyOf, nameOf, segs, segs_dg_app, segs_dg, hd]
      | 1 => simp [keyOf, nameOf, segs, segs_dg_app, segs_dg, hd]
      | l + 2 => simp [keyOf, nameOf, segs, segs_dg_app, segs_dg, hd]
    | _ => simp [keyOf, nameOf, segs, segs_dg, hd, hx, hv]
  | u i => simp [keyOf, nameOf, segs, segs_dg, hd]
  | mu i j => simp [keyOf, nameOf, segs, segs_dg, segs_dg_app, hd]
  | val v => simp [keyOf, nameOf]
  | glob g => cases g <;> decide
  | _ => decide

theorem nameOf_inj {k k' : Key} : nameOf k = nameOf k' ↔ k = k' :=
  ⟨fun h => Option.some.inj (by rw [← keyOf_nameOf k, h, keyOf_nameOf]), fun h => h ▸ rfl⟩

/-- Keys whose names are identifiers. -/
def KeyOk : Key → Prop
  | .val v => ∀ c ∈ v, c.isDigit = true
  | _ => True

theorem isName_key {k : Key} (h : KeyOk k) : IsName (nameOf k) := by
  have hd : ∀ n c, c ∈ dg n → idChar c = true := fun n c hc => idChar_digit (digits_all hc)
  cases k with
  | dim i k =>
    cases k with
    | phi l j =>
      match l with
      | 0 =>
        refine ⟨⟨_, _, rfl, by decide, by decide, by decide⟩, ?_, by simp [keyword, nameOf]⟩
        intro c hc
        simp only [nameOf, List.mem_cons, List.mem_append] at hc
        rcases hc with rfl | rfl | hc | rfl | hc <;> first | decide | exact hd _ _ hc
      | 1 =>
        refine ⟨⟨_, _, rfl, by decide, by decide, by decide⟩, ?_, by simp [keyword, nameOf]⟩
        intro c hc
        simp only [nameOf, List.mem_cons, List.mem_append] at hc
        rcases hc with rfl | rfl | rfl | rfl | hc | rfl | hc <;> first | decide | exact hd _ _ hc
      | l + 2 =>
        refine ⟨⟨_, _, rfl, by decide, by decide, by decide⟩, ?_, by simp [keyword, nameOf]⟩
        intro c hc
        simp only [nameOf, List.mem_cons, List.mem_append] at hc
        rcases hc with rfl | rfl | hc | rfl | rfl | rfl | hc | rfl | hc <;> first | decide | exact hd _ _ hc
    | gc =>
      refine ⟨⟨_, _, rfl, by decide, by decide, by decide⟩, ?_, by simp [keyword, nameOf]⟩
      intro c hc
      simp only [nameOf, List.mem_cons] at hc
      rcases hc with rfl | rfl | rfl | hc <;> first | decide | exact hd _ _ hc
    | _ =>
      refine ⟨⟨_, _, rfl, by decide, by decide, by decide⟩, ?_, by simp [keyword, nameOf]⟩
      intro c hc
      simp only [nameOf, List.mem_cons] at hc
      rcases hc with rfl | rfl | hc <;> first | decide | exact hd _ _ hc
  | u i =>
    refine ⟨⟨_, _, rfl, by decide, by decide, by decide⟩, ?_, by simp [keyword, nameOf]⟩
    intro c hc
    simp only [nameOf, List.mem_cons] at hc
    rcases hc with rfl | rfl | hc <;> first | decide | exact hd _ _ hc
  | mu i j =>
    refine ⟨⟨_, _, rfl, by decide, by decide, by decide⟩, ?_, by simp [keyword, nameOf]⟩
    intro c hc
    simp only [nameOf, List.mem_cons, List.mem_append] at hc
    rcases hc with rfl | rfl | hc | rfl | hc <;> first | decide | exact hd _ _ hc
  | val v =>
    refine ⟨⟨_, _, rfl, by decide, by decide, by decide⟩, ?_, by simp [keyword, nameOf]⟩
    intro c hc
    simp only [nameOf, List.mem_cons] at hc
    rcases hc with rfl | rfl | rfl | rfl | hc <;> first | decide | exact idChar_digit (h _ hc)
  | glob g => cases g <;> exact ⟨⟨_, _, rfl, by decide, by decide, by decide⟩, by decide, by decide⟩
  | _ => exact ⟨⟨_, _, rfl, by decide, by decide, by decide⟩, by decide, by decide⟩

end Interp.PyParse
