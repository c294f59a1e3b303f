import Verif.Threshold

/-!
# Model of `galaxychop/models/_histogram.py`

The two `split` methods repeat the same code apart from the selection of co-rotating spheroid stars;
the model writes the common part once, with the selection as a parameter.  Particle numbers pass
through float arrays in the code (`np.concatenate` with an empty list, then `astype(int)`), which is
exact below 2^53.
-/

namespace GChop

variable {F : Type} [Num F] {σ : Type}

/-- `np.random.Generator.choice(a, k, replace=False)` as an oracle with state -/
structure Rng (σ : Type) where
  choice : σ → List Nat → Nat → List Nat × σ

/-- the assumption on the generator: `k` entries of `a` at different positions -/
def Rng.OK (rng : Rng σ) : Prop :=
  ∀ s a k, k ≤ a.length → (rng.choice s a k).1.length = k ∧ (rng.choice s a k).1.Subperm a

/-- `random_state.choice(a, k, replace=False)`; `ValueError` if there are fewer than `k` entries -/
def Rng.draw (rng : Rng σ) (s : σ) (a : List Nat) (k : Nat) : Py (List Nat × σ) :=
  if k ≤ a.length then .ok (rng.choice s a k) else .error .valueError

/-- insert into a sorted list without repetitions -/
def Np.insertUnique (x : Nat) : List Nat → List Nat
  | [] => [x]
  | y :: l => if x < y then x :: y :: l else if x = y then y :: l else y :: insertUnique x l

/-- `np.unique(a)`: sorted, without repetitions -/
def Np.unique (a : List Nat) : List Nat := a.foldr insertUnique []

/-- edges and zero bin of `_make_histogram`, _histogram.py:68-79 (the counts and centers are not
used).  `np.histogram` raises `ValueError` for fewer than one bin; the last index of line 77 raises
`IndexError` if no rounded edge is zero. -/
def makeHistogram (nBin : Int) (digits : Int) : Py (List F × Nat) :=
  if nBin ≤ 0 then .error .valueError
  else
    let edges := (Np.linspace (Num.ofRat (-1)) (Num.ofRat 1) nBin.toNat).map (Num.roundDec digits)
    match (Np.whereIdx (edges.map fun e => e ==. Num.ofRat 0)).head? with
    | some bin0 => .ok (edges, bin0)
    | none => .error .indexError

/-- membership in bin `i` of `nBin`: closed on the left, and on the right for the last bin -/
def inBinI (edges : List F) (nBin i : Nat) (e : F) : Bool :=
  (edges.getD i Num.nan <=. e) &&
    (if i = nBin - 1 then e <=. edges.getD (i + 1) Num.nan else e <. edges.getD (i + 1) Num.nan)

/-- `bin_to_particle`, _histogram.py:150-156 and 353-359; `ids p` is
`X_ind[np.where(p(eps))[0]]` -/
def makeBins (edges : List F) (nBin : Nat) (ids : (F → Bool) → List Nat) : Dict Nat (List Nat) :=
  let d := (List.range (nBin - 1)).foldl (fun d i => Dict.set d i (ids fun e =>
    (edges.getD i Num.nan <=. e) && (e <. edges.getD (i + 1) Num.nan))) []
  Dict.set d (nBin - 1) (ids fun e =>
    (edges.getD (nBin - 1) Num.nan <=. e) && (e <=. edges.getD nBin Num.nan))

/-- the loop of `_make_count_sph`, _histogram.py:81-86 -/
def makeCountSph (bins : Dict Nat (List Nat)) : List Nat → Dict Nat (List Nat) →
    Py (Dict Nat (List Nat))
  | [], sph => .ok sph
  | i :: is, sph => do
    let ids ← Dict.getItem bins i
    makeCountSph bins is (Dict.set sph i ids)

/-- `lim_aux`, _histogram.py:92 and 236 -/
def limAux (nBin bin0 : Nat) : Nat := if nBin ≥ 2 * bin0 then 0 else 2 * bin0 - nBin

/-- the loop of `_make_corot_sph`, _histogram.py:94-106 and 238-320; `select count corot` picks from
a co-rotating bin that has more stars than its mirror bin -/
def makeCorotSph (select : List Nat → List Nat → σ → Py (List Nat × σ)) (bin0 : Nat)
    (bins : Dict Nat (List Nat)) : List Nat → Dict Nat (List Nat) → σ →
    Py (Dict Nat (List Nat) × σ)
  | [], sph, s => .ok (sph, s)
  | c :: cs, sph, s => do
    let corotBin := 2 * bin0 - 1 - c
    let cnt ← Dict.getItem bins c
    let cor ← Dict.getItem bins corotBin
    if cnt.length ≥ cor.length then
      makeCorotSph select bin0 bins cs (Dict.set sph corotBin cor) s
    else do
      let (sel, s) ← select cnt cor s
      makeCorotSph select bin0 bins cs (Dict.set sph corotBin sel) s

/-- the second loop of `_make_disk`, _histogram.py:117-119 -/
def diskLoop (bins sph : Dict Nat (List Nat)) : List Nat → Dict Nat (List Nat) →
    Py (Dict Nat (List Nat))
  | [], dsk => .ok dsk
  | k :: ks, dsk => do
    let arr ← Dict.getItem bins k
    let flt ← Dict.getItem sph k
    diskLoop bins sph ks (Dict.set dsk k (Np.unique (arr.filter fun i => !flt.contains i)))

/-- `_make_disk`, _histogram.py:109-120 -/
def makeDisk (bins : Dict Nat (List Nat)) (bin0 nBin : Nat) (sph : Dict Nat (List Nat)) :
    Py (Dict Nat (List Nat)) :=
  let dsk := (List.range bin0).foldl (fun d i => Dict.set d i []) bins
  let lim := if nBin ≥ 2 * bin0 then bin0 else nBin - bin0
  diskLoop bins sph (List.range' lim (sph.length - lim)) dsk

/-- lines 169-172, 174-177: concatenate the entries `0 .. len - 1`; with no entry the result is the
Python list `[]`, which has no `astype` (`AttributeError`) -/
def concatEntries (d : Dict Nat (List Nat)) : Py (List Nat) :=
  if d.length = 0 then .error .attributeError
  else do return (← (List.range d.length).mapM fun i => Dict.getItem d i).flatten

/-- the part of `split` after the bins, _histogram.py:158-184 and 361-399 -/
def labelBins (junk : Nat → Int) (select : List Nat → List Nat → σ → Py (List Nat × σ))
    (n nBin bin0 : Nat) (bins : Dict Nat (List Nat)) (s : σ) : Py (List Int × σ) := do
  let sph ← makeCountSph bins (List.range bin0) []
  let lim := limAux nBin bin0
  let (sph, s) ← makeCorotSph select bin0 bins (List.range' lim (bin0 - lim)) sph s
  let dsk ← makeDisk bins bin0 nBin sph
  let esf ← concatEntries sph
  let disk ← concatEntries dsk
  let labels ← Np.fillAt (npEmpty junk n) esf 0
  let labels ← Np.fillAt labels disk 1
  return (labels, s)

/-- `JHistogram.split`, _histogram.py:133-184 -/
def jHistogramSplit (junk : Nat → Int) (rng : Rng σ) (nBin digits : Int) (X : List (List F))
    (s : σ) : Py (List Int × σ) := do
  let (edges, bin0) ← makeHistogram (F := F) nBin digits
  let bins := makeBins edges nBin.toNat fun p =>
    Np.take (List.range X.length) (Np.where2 (X.map fun r => r.map p))
  labelBins junk (fun cnt cor s => rng.draw s cor cnt.length) X.length nBin.toNat bin0 bins s

/-- the counts of `np.histogram(x, bins=n, range=(-1, 0))`: bin `j` is closed on the left, the last
one also on the right; values outside the range are not counted -/
def energyHist (edges : List F) (nE : Nat) (x : List F) : List Nat :=
  (List.range nE).map fun j => (x.filter (inBinI edges nE j)).length

/-- the loop over the energy bins, _histogram.py:266-316.  `energy i` is `normalized_energy[i]`. -/
def energyLoop (rng : Rng σ) (edges : List F) (energy : Nat → F) (histCount histCorr : List Nat)
    (cor : List Nat) : List Nat → List Nat → σ → Py (List Nat × σ)
  | [], aux0, s => .ok (aux0, s)
  | j :: js, aux0, s =>
    let masked := cor.filter fun i => (edges.getD j Num.nan <=. energy i) &&
      (energy i <. edges.getD (j + 1) Num.nan)
    if histCount.getD j 0 ≠ 0 then
      if histCount.getD j 0 ≥ histCorr.getD j 0 then
        energyLoop rng edges energy histCount histCorr cor js (aux0 ++ masked) s
      else do
        let (aux1, s) ← rng.draw s masked (histCount.getD j 0)
        energyLoop rng edges energy histCount histCorr cor js (aux0 ++ aux1) s
    else energyLoop rng edges energy histCount histCorr cor js aux0 s

/-- the selection by energy, _histogram.py:250-320; `np.histogram` raises `ValueError` for fewer than
one bin -/
def energySelect (rng : Rng σ) (nBinE : Int) (energy : Nat → F) (cnt cor : List Nat) (s : σ) :
    Py (List Nat × σ) :=
  if nBinE ≤ 0 then .error .valueError
  else
    let nE := nBinE.toNat
    let edges : List F := Np.linspace (Num.ofRat (-1)) (Num.ofRat 0) nE
    energyLoop rng edges energy (energyHist edges nE (cnt.map energy))
      (energyHist edges nE (cor.map energy)) cor (List.range nE) [] s

/-- `JEHistogram.split`, _histogram.py:334-399; the columns of `X` are the normalized energy and the
circularity -/
def jeHistogramSplit (junk : Nat → Int) (rng : Rng σ) (nBin digits nBinE : Int)
    (X : List (List F)) (s : σ) : Py (List Int × σ) := do
  let energy := X.map fun r => r.getD 0 Num.nan
  let eps := X.map fun r => r.getD 1 Num.nan
  let (edges, bin0) ← makeHistogram (F := F) nBin digits
  let bins := makeBins edges nBin.toNat fun p =>
    Np.take (List.range eps.length) (Np.whereIdx (eps.map p))
  labelBins junk (energySelect rng nBinE fun i => energy.getD i Num.nan) X.length nBin.toNat bin0
    bins s

/-- `JHistogram(n_bin, digits, random_state)` with its attributes, _histogram.py:64-66 and 122-130; the
labels come without probabilities (line 184) -/
def jHistogram (junk : Nat → Int) (rng : Rng σ) (nBin digits : Int) (s : σ) : Decomposer F :=
  ⟨["eps"], starsRowsMask, fun X _ =>
    (jHistogramSplit junk rng nBin digits X s).map fun ls => (ls.1, none)⟩

/-- `JEHistogram(n_bin, digits, n_bin_E, random_state)` with its attributes, _histogram.py:222 and
322-331 -/
def jeHistogram (junk : Nat → Int) (rng : Rng σ) (nBin digits nBinE : Int) (s : σ) : Decomposer F :=
  ⟨["normalized_star_energy", "eps"], starsRowsMask, fun X _ =>
    (jeHistogramSplit junk rng nBin digits nBinE X s).map fun ls => (ls.1, none)⟩

end GChop
