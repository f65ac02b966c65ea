import Verif.Model.Arrays

/-!
# Complete polynomials

Model of `interpolation/complete_poly.py`.  Integers are unbounded (the compiled `n_complete` uses
64-bit integers).
-/

namespace Interp.CompletePoly

/-- `n_complete(n, d)`, L39-73. The loop state is `(out, denom)`. -/
def nComplete (n d : ℤ) : ℤ :=
  ((rangeZ 0 d).foldl (fun (s : ℤ × ℤ) i =>
    let denom := s.2 * (i + 1)
    let tmp := (rangeZ 0 (i + 1)).foldl (fun tmp j => tmp * (n + j)) 1
    (s.1 + Int.fdiv tmp denom, denom)) (1, 1)).1

variable {K : Type} [Mul K] [Zero K] [One K] [NatCast K] [Pow K ℕ]

/-- `range(lo, hi)` for natural numbers. -/
def rangeN (lo hi : ℕ) : List ℕ := List.range' lo (hi - lo)

/-- `z[i1] * z[i2] * ...` (a product of at least one factor, associated to the left). -/
def prodOf (z : ℕ → Py K) : List ℕ → Py K
  | [] => pure 1
  | i :: l => do
    let v ← z i
    l.foldlM (fun acc j => do
      let w ← z j
      pure (acc * w)) v

/-- `ix += 1; out[ix] = v`. -/
def putVec (v : Py K) (s : ℕ × NdArray K) : Py (ℕ × NdArray K) := do
  let ix := s.1 + 1
  let v ← v
  let out ← s.2.write [(ix : ℤ)] v
  pure (ix, out)

/-- `ix += 1`, then `for k in range(nobs): out[ix, k] = v(k)`. -/
def putMat (nobs : ℕ) (v : ℕ → Py K) (s : ℕ × NdArray K) : Py (ℕ × NdArray K) := do
  let ix := s.1 + 1
  let out ← pyFor (List.range nobs) (fun k out => do
    let v ← v k
    out.write [(ix : ℤ), (k : ℤ)] v) s.2
  pure (ix, out)

/-- `z[i]`. -/
def rdVec (z : NdArray K) (i : ℕ) : Py K := z.read [(i : ℤ)]

/-- `z[i, k]`. -/
def rdMat (z : NdArray K) (k i : ℕ) : Py K := z.read [(i : ℤ), (k : ℤ)]

/-- `_complete_poly_impl_vec(z, d, out)`, L126-197. -/
def implVec (z : NdArray K) (d : ℤ) (out : NdArray K) : Py (NdArray K) := do
  let nvar := z.shape.getD 0 0
  let put (l : List ℕ) := putVec (prodOf (rdVec z) l)
  let out ← out.write [0] 1
  let out ← if 1 ≤ d then
      pyFor (rangeN 1 (nvar + 1)) (fun i out => do
        let v ← z.read [(i : ℤ) - 1]
        out.write [(i : ℤ)] v) out
    else pure out
  if d = 1 then return out
  let s := (nvar, out)
  if d = 2 then
    let s ← pyFor (List.range nvar) (fun i1 => pyFor (rangeN i1 nvar) fun i2 => put [i1, i2]) s
    return s.2
  if d = 3 then
    let s ← pyFor (List.range nvar) (fun i1 => pyFor (rangeN i1 nvar) fun i2 s => do
      let s ← put [i1, i2] s
      pyFor (rangeN i2 nvar) (fun i3 => put [i1, i2, i3]) s) s
    return s.2
  if d = 4 then
    let s ← pyFor (List.range nvar) (fun i1 => pyFor (rangeN i1 nvar) fun i2 s => do
      let s ← put [i1, i2] s
      pyFor (rangeN i2 nvar) (fun i3 s => do
        let s ← put [i1, i2, i3] s
        pyFor (rangeN i3 nvar) (fun i4 => put [i1, i2, i3, i4]) s) s) s
    return s.2
  if d = 5 then
    let s ← pyFor (List.range nvar) (fun i1 => pyFor (rangeN i1 nvar) fun i2 s => do
      let s ← put [i1, i2] s
      pyFor (rangeN i2 nvar) (fun i3 s => do
        let s ← put [i1, i2, i3] s
        pyFor (rangeN i3 nvar) (fun i4 s => do
          let s ← put [i1, i2, i3, i4] s
          pyFor (rangeN i4 nvar) (fun i5 => put [i1, i2, i3, i4, i5]) s) s) s) s
    return s.2
  return out

/-- `_complete_poly_impl(z, d, out)`, L201-286. -/
def implMat (z : NdArray K) (d : ℤ) (out : NdArray K) : Py (NdArray K) := do
  let nvar := z.shape.getD 0 0
  let nobs := z.shape.getD 1 0
  let put (l : List ℕ) := putMat nobs (fun k => prodOf (rdMat z k) l)
  let out ← pyFor (List.range nobs) (fun k out => out.write [0, (k : ℤ)] 1) out
  let out ← if 1 ≤ d then
      pyFor (rangeN 1 (nvar + 1)) (fun i => pyFor (List.range nobs) fun k out => do
        let v ← z.read [(i : ℤ) - 1, (k : ℤ)]
        out.write [(i : ℤ), (k : ℤ)] v) out
    else pure out
  if d = 1 then return out
  let s := (nvar, out)
  if d = 2 then
    let s ← pyFor (List.range nvar) (fun i1 => pyFor (rangeN i1 nvar) fun i2 => put [i1, i2]) s
    return s.2
  if d = 3 then
    let s ← pyFor (List.range nvar) (fun i1 => pyFor (rangeN i1 nvar) fun i2 s => do
      let s ← put [i1, i2] s
      pyFor (rangeN i2 nvar) (fun i3 => put [i1, i2, i3]) s) s
    return s.2
  if d = 4 then
    let s ← pyFor (List.range nvar) (fun i1 => pyFor (rangeN i1 nvar) fun i2 s => do
      let s ← put [i1, i2] s
      pyFor (rangeN i2 nvar) (fun i3 s => do
        let s ← put [i1, i2, i3] s
        pyFor (rangeN i3 nvar) (fun i4 => put [i1, i2, i3, i4]) s) s) s
    return s.2
  if d = 5 then
    let s ← pyFor (List.range nvar) (fun i1 => pyFor (rangeN i1 nvar) fun i2 s => do
      let s ← put [i1, i2] s
      pyFor (rangeN i2 nvar) (fun i3 s => do
        let s ← put [i1, i2, i3] s
        pyFor (rangeN i3 nvar) (fun i4 s => do
          let s ← put [i1, i2, i3, i4] s
          pyFor (rangeN i4 nvar) (fun i5 => put [i1, i2, i3, i4, i5]) s) s) s) s
    return s.2
  return out

/-- `complete_polynomial(z, d)`, L79-120. -/
def completePolynomial (z : NdArray K) (d : ℤ) : Py (NdArray K) := do
  if ¬ d ≥ 0 then throw .assertion
  if d > 5 then throw .value
  match z.shape with
  | [nvar] =>
    let out := NdArray.zeros [(nComplete nvar d).toNat]
    implVec z d out
  | [nvar, nobs] =>
    let out := NdArray.zeros [(nComplete nvar d).toNat, nobs]
    implMat z d out
  | _ => throw .value

/-- `(c + 1, 1.0) if i == der else (c, z[i])`. -/
def step (z : ℕ → Py K) (der : ℕ) (i c : ℕ) : Py (ℕ × K) :=
  if i = der then pure (c + 1, 1)
  else do
    let v ← z i
    pure (c, v)

/-- `c * t1 * t2 * ... * z[der] ** (c - 1) if c > 0 else 0.0`. -/
def derVal (z : ℕ → Py K) (der c : ℕ) (ts : List K) : Py K :=
  if 0 < c then do
    let w ← z der
    pure (ts.foldl (· * ·) (c : K) * w ^ (c - 1))
  else pure 0

/-- `_complete_poly_der_impl_vec(z, d, der, out)`, L345-450. -/
def derImplVec (z : NdArray K) (d : ℤ) (der : ℕ) (out : NdArray K) : Py (NdArray K) := do
  let nvar := z.shape.getD 0 0
  let step := step (rdVec z) der
  let put (c : ℕ) (ts : List K) := putVec (derVal (rdVec z) der c ts)
  let out ← out.write [0] 0
  let out ← if 1 ≤ d then do
      let out ← pyFor (List.range nvar) (fun i out => out.write [(i : ℤ) + 1] 0) out
      out.write [(der : ℤ) + 1] 1
    else pure out
  if d = 1 then return out
  let s := (nvar, out)
  if d = 2 then
    let s ← pyFor (List.range nvar) (fun i1 s => do
      let (c1, t1) ← step i1 0
      pyFor (rangeN i1 nvar) (fun i2 s => do
        let (c2, t2) ← step i2 c1
        put c2 [t1, t2] s) s) s
    return s.2
  if d = 3 then
    let s ← pyFor (List.range nvar) (fun i1 s => do
      let (c1, t1) ← step i1 0
      pyFor (rangeN i1 nvar) (fun i2 s => do
        let (c2, t2) ← step i2 c1
        let s ← put c2 [t1, t2] s
        pyFor (rangeN i2 nvar) (fun i3 s => do
          let (c3, t3) ← step i3 c2
          put c3 [t1, t2, t3] s) s) s) s
    return s.2
  if d = 4 then
    let s ← pyFor (List.range nvar) (fun i1 s => do
      let (c1, t1) ← step i1 0
      pyFor (rangeN i1 nvar) (fun i2 s => do
        let (c2, t2) ← step i2 c1
        let s ← put c2 [t1, t2] s
        pyFor (rangeN i2 nvar) (fun i3 s => do
          let (c3, t3) ← step i3 c2
          let s ← put c3 [t1, t2, t3] s
          pyFor (rangeN i3 nvar) (fun i4 s => do
            let (c4, t4) ← step i4 c3
            put c4 [t1, t2, t3, t4] s) s) s) s) s
    return s.2
  if d = 5 then
    let s ← pyFor (List.range nvar) (fun i1 s => do
      let (c1, t1) ← step i1 0
      pyFor (rangeN i1 nvar) (fun i2 s => do
        let (c2, t2) ← step i2 c1
        let s ← put c2 [t1, t2] s
        pyFor (rangeN i2 nvar) (fun i3 s => do
          let (c3, t3) ← step i3 c2
          let s ← put c3 [t1, t2, t3] s
          pyFor (rangeN i3 nvar) (fun i4 s => do
            let (c4, t4) ← step i4 c3
            let s ← put c4 [t1, t2, t3, t4] s
            pyFor (rangeN i4 nvar) (fun i5 s => do
              let (c5, t5) ← step i5 c4
              put c5 [t1, t2, t3, t4, t5] s) s) s) s) s) s
    return s.2
  return out

/-- The body of the innermost loops of `_complete_poly_der_impl`: `c1, t1 = ...; c2, t2 = ...; ...`
and the value assigned to `out[ix, k]`. -/
def derEntry (z : ℕ → Py K) (der : ℕ) : ℕ → List K → List ℕ → Py K
  | c, ts, [] => derVal z der c ts
  | c, ts, i :: l => do
    let (c', t) ← step z der i c
    derEntry z der c' (ts ++ [t]) l

/-- `_complete_poly_der_impl(z, d, der, out)`, L454-590. -/
def derImplMat (z : NdArray K) (d : ℤ) (der : ℕ) (out : NdArray K) : Py (NdArray K) := do
  let nvar := z.shape.getD 0 0
  let nobs := z.shape.getD 1 0
  let put (l : List ℕ) := putMat nobs (fun k => derEntry (rdMat z k) der 0 [] l)
  let out ← pyFor (List.range nobs) (fun k out => out.write [0, (k : ℤ)] 0) out
  let out ← if 1 ≤ d then do
      let out ← pyFor (List.range nvar) (fun i => pyFor (List.range nobs) fun k out =>
        out.write [(i : ℤ) + 1, (k : ℤ)] 0) out
      pyFor (List.range nobs) (fun k out => out.write [(der : ℤ) + 1, (k : ℤ)] 1) out
    else pure out
  if d = 1 then return out
  let s := (nvar, out)
  if d = 2 then
    let s ← pyFor (List.range nvar) (fun i1 => pyFor (rangeN i1 nvar) fun i2 => put [i1, i2]) s
    return s.2
  if d = 3 then
    let s ← pyFor (List.range nvar) (fun i1 => pyFor (rangeN i1 nvar) fun i2 s => do
      let s ← put [i1, i2] s
      pyFor (rangeN i2 nvar) (fun i3 => put [i1, i2, i3]) s) s
    return s.2
  if d = 4 then
    let s ← pyFor (List.range nvar) (fun i1 => pyFor (rangeN i1 nvar) fun i2 s => do
      let s ← put [i1, i2] s
      pyFor (rangeN i2 nvar) (fun i3 s => do
        let s ← put [i1, i2, i3] s
        pyFor (rangeN i3 nvar) (fun i4 => put [i1, i2, i3, i4]) s) s) s
    return s.2
  if d = 5 then
    let s ← pyFor (List.range nvar) (fun i1 => pyFor (rangeN i1 nvar) fun i2 s => do
      let s ← put [i1, i2] s
      pyFor (rangeN i2 nvar) (fun i3 s => do
        let s ← put [i1, i2, i3] s
        pyFor (rangeN i3 nvar) (fun i4 s => do
          let s ← put [i1, i2, i3, i4] s
          pyFor (rangeN i4 nvar) (fun i5 => put [i1, i2, i3, i4, i5]) s) s) s) s
    return s.2
  return out

/-- `complete_polynomial_der(z, d, der)`, L292-341. -/
def completePolynomialDer (z : NdArray K) (d der : ℤ) : Py (NdArray K) := do
  if ¬ d ≥ 0 then throw .assertion
  if ¬ der ≥ 0 then throw .assertion
  if d > 5 then throw .value
  match z.shape with
  | [nvar] =>
    if ¬ der < nvar then throw .assertion
    let out := NdArray.zeros [(nComplete nvar d).toNat]
    derImplVec z d der.toNat out
  | [nvar, nobs] =>
    if ¬ der < nvar then throw .assertion
    let out := NdArray.zeros [(nComplete nvar d).toNat, nobs]
    derImplMat z d der.toNat out
  | _ => throw .value

/-! ### The class `CompletePolynomial` -/

section
variable [Add K] [Sub K] [BEq K]

/-- Attributes of a `CompletePolynomial`; `coefs` is absent before the first fit. (The attribute
`Phi` is written and never read.) -/
structure Obj (K : Type) where
  n : ℤ
  d : ℤ
  coefs : Option (NdArray K)

/-- `CompletePolynomial(n, d)`, L594-596. -/
def Obj.new (n d : ℤ) : Obj K := ⟨n, d, none⟩

/-- `A.T` for a matrix. -/
def transpose (A : NdArray K) : NdArray K :=
  ⟨A.shape.reverse, fun idx => A.get idx.reverse⟩

/-- `np.dot(A, c)` for a vector or matrix `A` and a vector or matrix `c` (contraction of the last
axis of `A` with the first axis of `c`); `ValueError` if the sizes differ. -/
def dot (A c : NdArray K) : Py (NdArray K) :=
  match A.shape, c.shape with
  | [N, p], q :: t =>
    if p = q then
      pure ⟨N :: t, fun idx => ((List.range p).map fun j =>
        A.get [idx.headD 0, j] * c.get (j :: idx.tail)).foldl (· + ·) 0⟩
    else throw .value
  | [p], q :: t =>
    if p = q then
      pure ⟨t, fun idx => ((List.range p).map fun j => A.get [j] * c.get (j :: idx)).foldl (· + ·) 0⟩
    else throw .value
  | _, _ => throw .value

/-- `(1 - damp) * new + damp * old`, elementwise, on arrays of the same shape (broadcasting of
different shapes is not modelled: reported as `ValueError`). -/
def blend (damp : K) (new old : NdArray K) : Py (NdArray K) :=
  if new.shape = old.shape then
    pure ⟨new.shape, fun idx => (1 - damp) * new.get idx + damp * old.get idx⟩
  else throw .value

/-- `fit_values(s, x, damp)`, L598-605; `lstsq` stands for `scipy.linalg.lstsq(Phi, x)[0]`, which is
not part of the repository. -/
def fitValues (lstsq : NdArray K → NdArray K → Py (NdArray K)) (o : Obj K) (s x : NdArray K)
    (damp : K) : Py (Obj K) := do
  let PhiT ← completePolynomial (transpose s) o.d
  let Phi := transpose PhiT
  if damp == 0 then
    let c ← lstsq Phi x
    return { o with coefs := some c }
  let newCoefs ← lstsq Phi x
  match o.coefs with
  | none => throw .attribute
  | some old =>
    let c ← blend damp newCoefs old
    return { o with coefs := some c }

/-- `der(s, der)`, L607-609. -/
def Obj.der (o : Obj K) (s : NdArray K) (i : ℤ) : Py (NdArray K) := do
  let dPhiT ← completePolynomialDer (transpose s) o.d i
  match o.coefs with
  | none => throw .attribute
  | some c => dot (transpose dPhiT) c

/-- `__call__(s)`, L611-613. -/
def Obj.call (o : Obj K) (s : NdArray K) : Py (NdArray K) := do
  let PhiT ← completePolynomial (transpose s) o.d
  match o.coefs with
  | none => throw .attribute
  | some c => dot (transpose PhiT) c

end

end Interp.CompletePoly
