import Verif.Spec.PySrc
import Verif.Model.Tempita

/-!
# The syntax trees of the functions of `eval_cubic_numba.py`, for any number of axes
-/

namespace Interp.Spec.PySrc
open Interp.Tempita (Str)

/-- Variables with an axis in their names. -/
inductive Fam where
  | M | start | dinv | x | u | i | t
  deriving DecidableEq

/-- Variables with an axis and a basis function in their names. -/
inductive Fam2 where
  | tp | Phi | dPhi
  deriving DecidableEq

/-- The names in the texts. -/
inductive Var where
  | ax (f : Fam) (i : Fin 4)
  | ax2 (f : Fam2) (i j : Fin 4)
  | a | b | orders | coefs | point | points | out | vals | dvals | n | k | N | nVals | d | t
  | Ad | dAd | int | floor | max | min | range
  deriving DecidableEq

def dig (i : Fin 4) : Char := match i with
  | 0 => '0' | 1 => '1' | 2 => '2' | 3 => '3'

def Fam.chars : Fam → Str
  | .M => c!"M" | .start => c!"start" | .dinv => c!"dinv" | .x => c!"x" | .u => c!"u" | .i => c!"i" | .t => c!"t"
def Fam2.chars : Fam2 → Str
  | .tp => c!"tp" | .Phi => c!"Phi" | .dPhi => c!"dPhi"

def Var.chars : Var → Str
  | .ax f i => f.chars ++ [dig i]
  | .ax2 f i j => f.chars ++ [dig i, '_', dig j]
  | .a => c!"a" | .b => c!"b" | .orders => c!"orders" | .coefs => c!"coefs" | .point => c!"point" | .points => c!"points"
  | .out => c!"out" | .vals => c!"vals" | .dvals => c!"dvals" | .n => c!"n" | .k => c!"k" | .N => c!"N"
  | .nVals => c!"n_vals" | .d => c!"d" | .t => c!"t"
  | .Ad => c!"Ad" | .dAd => c!"dAd" | .int => c!"int" | .floor => c!"floor" | .max => c!"max" | .min => c!"min"
  | .range => c!"range"

def Var.name (v : Var) : String := String.ofList v.chars

namespace Numba
def nm (v : Var) : Ex := .name v.name
def asg (v : Var) (e : Ex) (r : Block) : Block := .simple (.assign (nm v) e) r
def at1 (v : Var) (i : ℕ) : Ex := .index (nm v) (.cons (.int i) .nil)
def at2 (v : Var) (i j : ℕ) : Ex := .index (nm v) (.cons (.int i) (.cons (.int j) .nil))
def mul (a b : Ex) : Ex := .bin .star a b
def add (a b : Ex) : Ex := .bin .plus a b
def sub (a b : Ex) : Ex := .bin .minus a b
def call1 (f : Var) (e : Ex) : Ex := .call (nm f) (.cons e .nil)
def call2 (f : Var) (e e' : Ex) : Ex := .call (nm f) (.cons e (.cons e' .nil))

/-- Statements for each of these, one after another. -/
def seqs {α : Type} (f : α → Block → Block) : List α → Block → Block
  | [], r => r
  | a :: l, r => f a (seqs f l r)

def four : List (Fin 4) := [0, 1, 2, 3]

def headerAt (i : Fin 4) (r : Block) : Block :=
  asg (.ax .M i) (at1 .orders i) <| asg (.ax .start i) (at1 .a i) <|
  asg (.ax .dinv i) (.bin .slash (sub (at1 .orders i) (.float 1 0)) (sub (at1 .b i) (at1 .a i))) r
def coordAt (i : Fin 4) (r : Block) : Block := asg (.ax .x i) (at1 .point i) r
def coordsAt (i : Fin 4) (r : Block) : Block :=
  asg (.ax .x i) (.index (nm .points) (.cons (nm .n) (.cons (.int i) .nil))) r
def locateAt (i : Fin 4) (r : Block) : Block :=
  asg (.ax .u i) (mul (sub (nm (.ax .x i)) (nm (.ax .start i))) (nm (.ax .dinv i))) <|
  asg (.ax .i i) (call1 .int (call1 .floor (nm (.ax .u i)))) <|
  asg (.ax .i i) (call2 .max (call2 .min (nm (.ax .i i)) (sub (nm (.ax .M i)) (.int 2))) (.int 0)) <|
  asg (.ax .t i) (sub (nm (.ax .u i)) (nm (.ax .i i))) r
def tpAt (i : Fin 4) (r : Block) : Block :=
  asg (.ax2 .tp i 0) (mul (mul (nm (.ax .t i)) (nm (.ax .t i))) (nm (.ax .t i))) <|
  asg (.ax2 .tp i 1) (mul (nm (.ax .t i)) (nm (.ax .t i))) <|
  asg (.ax2 .tp i 2) (nm (.ax .t i)) <| asg (.ax2 .tp i 3) (.float 1 0) r
def cubicEx (A : Var) (i j : Fin 4) : Ex :=
  add (add (add (mul (at2 A j 0) (nm (.ax2 .tp i 0))) (mul (at2 A j 1) (nm (.ax2 .tp i 1))))
    (mul (at2 A j 2) (nm (.ax2 .tp i 2)))) (mul (at2 A j 3) (nm (.ax2 .tp i 3)))
def belowEx (i j : Fin 4) : Ex := add (mul (at2 .dAd j 3) (nm (.ax .t i))) (at2 .Ad j 3)
def aboveEx (i j : Fin 4) : Ex :=
  add (mul (add (add (mul (.int 3) (at2 .Ad j 0)) (mul (.int 2) (at2 .Ad j 1))) (at2 .Ad j 2))
    (sub (nm (.ax .t i)) (.int 1)))
    (add (add (add (at2 .Ad j 0) (at2 .Ad j 1)) (at2 .Ad j 2)) (at2 .Ad j 3))
def phiAt (i : Fin 4) (r : Block) : Block :=
  seqs (fun j => asg (.ax2 .Phi i j) (.int 0)) four <|
  .ifte (.chain (nm (.ax .t i)) (.link .lt (.int 0) .nil))
    (seqs (fun j => asg (.ax2 .Phi i j) (belowEx i j)) four .nil)
    (.ifte (.chain (nm (.ax .t i)) (.link .gt (.int 1) .nil))
      (seqs (fun j => asg (.ax2 .Phi i j) (aboveEx i j)) four .nil)
      (seqs (fun j => asg (.ax2 .Phi i j) (cubicEx .Ad i j)) four .nil) .nil) r
def dphiAt (i : Fin 4) (r : Block) : Block :=
  seqs (fun j => asg (.ax2 .dPhi i j) (mul (cubicEx .dAd i j) (nm (.ax .dinv i)))) four r

/-- Arguments. -/
def args : List Ex → Ex
  | [] => .nil
  | e :: es => .cons e (args es)

def contractEx (w : Fin 4 → Fam2) (tail : List Ex) : List (Fin 4) → List Ex → Ex
  | [], pos => .index (nm .coefs) (args (pos ++ tail))
  | i :: l, pos =>
    let e := fun j : Fin 4 => mul (nm (.ax2 (w i) i j)) (contractEx w tail l (pos ++ [add (nm (.ax .i i)) (.int j)]))
    add (add (add (e 0) (e 1)) (e 2)) (e 3)

def weights (l : List (Fin 4)) (r : Block) : Block := seqs locateAt l <| seqs tpAt l <| seqs phiAt l r

def rangeOf (v : Var) : Ex := call1 .range (nm v)
def shapeAt (v : Var) (i : ℕ) : Ex := .index (.attr (nm v) "shape") (.cons (.int i) .nil)

def evalSplineBody (l : List (Fin 4)) : Block :=
  seqs headerAt l <| seqs coordAt l <| weights l <|
  asg .t (contractEx (fun _ => .Phi) [] l []) (.simple (.ret (some (nm .t))) .nil)
def vecEvalSplineLoop (l : List (Fin 4)) : Block :=
  seqs coordsAt l <| seqs headerAt l <| weights l <|
    .simple (.assign (.index (nm .out) (.cons (nm .n) .nil)) (contractEx (fun _ => .Phi) [] l [])) .nil
def vecEvalSplineBody (l : List (Fin 4)) : Block :=
  asg .d (shapeAt .a 0) <| asg .N (shapeAt .points 0) <| .for (nm .n) (rangeOf .N) (vecEvalSplineLoop l) .nil
def value (l : List (Fin 4)) : Ex := contractEx (fun _ => .Phi) [nm .k] l []
def evalSplinesBody (l : List (Fin 4)) : Block :=
  asg .nVals (shapeAt .coefs l.length) <| seqs headerAt l <| seqs coordAt l <| weights l <|
  .for (nm .k) (rangeOf .nVals) (.simple (.assign (.index (nm .vals) (.cons (nm .k) .nil)) (value l)) .nil) .nil
def setVals (l : List (Fin 4)) (r : Block) : Block :=
  .simple (.assign (.index (nm .vals) (.cons (nm .n) (.cons (nm .k) .nil))) (value l)) r
def vecEvalSplinesLoop (l : List (Fin 4)) : Block :=
  seqs coordsAt l <| weights l <| .for (nm .k) (rangeOf .nVals) (setVals l .nil) .nil
def vecEvalSplinesBody (l : List (Fin 4)) : Block :=
  asg .nVals (shapeAt .coefs l.length) <| asg .N (shapeAt .points 0) <| seqs headerAt l <|
  .for (nm .n) (rangeOf .N) (vecEvalSplinesLoop l) .nil
def setDvals (l : List (Fin 4)) (q : Fin 4) (r : Block) : Block :=
  .simple (.assign (.index (nm .dvals) (.cons (nm .n) (.cons (.int q) (.cons (nm .k) .nil))))
    (contractEx (fun i => if i = q then .dPhi else .Phi) [nm .k] l [])) r
def vecEvalSplinesGLoop (l : List (Fin 4)) : Block :=
  seqs coordsAt l <| weights l <| seqs dphiAt l <|
  .for (nm .k) (rangeOf .nVals) (setVals l <| seqs (setDvals l) l .nil) .nil
def vecEvalSplinesGBody (l : List (Fin 4)) : Block :=
  asg .nVals (shapeAt .coefs l.length) <| asg .N (shapeAt .points 0) <| seqs headerAt l <|
  .for (nm .n) (rangeOf .N) (vecEvalSplinesGLoop l) .nil

/-- The axes, in order. -/
def axesOf : ℕ → List (Fin 4)
  | 1 => [0]
  | 2 => [0, 1]
  | 3 => [0, 1, 2]
  | _ => [0, 1, 2, 3]

def params (vs : List Var) : List (String × Option Ex) := vs.map fun v => (v.name, none)

def evalSplineFun (s : String) (l : List (Fin 4)) : FunDef := ⟨s, params [.a, .b, .orders, .coefs, .point], evalSplineBody l⟩
def vecEvalSplineFun (s : String) (l : List (Fin 4)) : FunDef :=
  ⟨s, params [.a, .b, .orders, .coefs, .points, .out], vecEvalSplineBody l⟩
def evalSplinesFun (s : String) (l : List (Fin 4)) : FunDef :=
  ⟨s, params [.a, .b, .orders, .coefs, .point, .vals], evalSplinesBody l⟩
def vecEvalSplinesFun (s : String) (l : List (Fin 4)) : FunDef :=
  ⟨s, params [.a, .b, .orders, .coefs, .points, .vals], vecEvalSplinesBody l⟩
def vecEvalSplinesGFun (s : String) (l : List (Fin 4)) : FunDef :=
  ⟨s, params [.a, .b, .orders, .coefs, .points, .vals, .dvals], vecEvalSplinesGBody l⟩

/-- The statements outside functions. -/
def initBlock : Block :=
  let f := fun (m k : ℕ) => Ex.bin .slash (.float m 0) (.float k 0)
  let g := fun (m k : ℕ) => Ex.bin .slash (.neg (.float m 0)) (.float k 0)
  let row := fun a b c d => Ex.list (args [a, b, c, d])
  let z := Ex.call (.name "zeros") (args [.tuple (args [.int 4, .int 4])])
  let loop := fun (x y : String) (r : Block) =>
    Block.for (.name "i") (.call (.name "range") (args [.int 1, .int 4]))
      (.simple (.assign (.index (.name x) (args [.full, .name "i"]))
        (.bin .star (.index (.name y) (args [.full, .bin .minus (.name "i") (.int 1)])) (.bin .minus (.int 4) (.name "i")))) .nil) r
  .simple (.assign (.name "Ad") (.call (.name "array") (args [.list (args
    [row (g 1 6) (f 3 6) (g 3 6) (f 1 6), row (f 3 6) (g 6 6) (f 0 6) (f 4 6),
     row (g 3 6) (f 3 6) (f 3 6) (f 1 6), row (f 1 6) (f 0 6) (f 0 6) (f 0 6)])]))) <|
  .simple (.assign (.name "dAd") z) <| loop "dAd" "Ad" <|
  .simple (.assign (.name "d2Ad") z) <| loop "d2Ad" "dAd" .nil
end Numba
end Interp.Spec.PySrc
