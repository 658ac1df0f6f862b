/-
Property theorems C25 and C26: the local system of the L2 projection
(src/weak_forms/l2_projector_weak_form.py), in exact arithmetic.
-/
import Verif.Lemmas.L2Form
import Mathlib.Algebra.Order.Ring.Rat
import Mathlib.Tactic.NormNum

namespace Verif.L2Form
open Assembly

variable {K X : Type}

/-! ### C25 -/

/-- C25: the slice of component `c` consists of the rows `c, c + n_comp, ...`, one per basis
function. -/
theorem C25_slice (nPhi nComp c : Nat) (hc : c < nComp) :
    (sliceIdx (nPhi * nComp) c (c + nPhi * nComp) nComp).length = nPhi ∧
    (sliceIdx (nPhi * nComp) c (c + nPhi * nComp) nComp).Nodup ∧
    ∀ a : Nat, a < nPhi →
      (sliceIdx (nPhi * nComp) c (c + nPhi * nComp) nComp)[a]? = some (c + nComp * a) := by
  rw [sliceIdx_comp hc]
  refine ⟨by simp, nodup_range'_step (by omega), ?_⟩
  intro a ha
  rw [List.getElem?_eq_getElem (by simpa using ha)]
  simp

/-- C25: every row of the block belongs to the slice of exactly one component. -/
theorem C25_partition (nPhi nComp i : Nat) :
    (i < nPhi * nComp ↔ ∃ c < nComp,
      i ∈ sliceIdx (nPhi * nComp) c (c + nPhi * nComp) nComp) ∧
    ∀ c < nComp, ∀ c' < nComp, i ∈ sliceIdx (nPhi * nComp) c (c + nPhi * nComp) nComp →
      i ∈ sliceIdx (nPhi * nComp) c' (c' + nPhi * nComp) nComp → c = c' := by
  constructor
  · constructor
    · intro h
      obtain ⟨a, c, ha, hc, rfl⟩ := split_index h
      refine ⟨c, hc, ?_⟩
      rw [sliceIdx_comp hc]
      exact (mem_comp ha hc hc).2 rfl
    · rintro ⟨c, hc, h⟩
      rw [sliceIdx_comp hc, mem_range'_step] at h
      obtain ⟨a, ha, rfl⟩ := h
      have := join_index ha hc
      rwa [Nat.mul_comm, Nat.add_comm] at this
  · intro c hc c' hc' h h'
    rw [sliceIdx_comp hc, mem_range'_step] at h
    rw [sliceIdx_comp hc'] at h'
    obtain ⟨a, ha, rfl⟩ := h
    have : c + nComp * a = a * nComp + c := by rw [Nat.mul_comm, Nat.add_comm]
    rw [this] at h'
    exact ((mem_comp ha hc hc').1 h').symm

/-- C25: fields, basis functions and components number the local system without gaps or overlaps;
field `k` takes the interval between its accumulated size and the next one. -/
theorem C25_numbering (fs : Fields K X) :
    (∀ d : LocalDof, d.Valid fs → blockStart fs d.field ≤ d.index fs ∧
      d.index fs < blockStart fs (d.field + 1) ∧ d.index fs < totalDofs fs) ∧
    (∀ d e : LocalDof, d.Valid fs → e.Valid fs → d.index fs = e.index fs → d = e) ∧
    ∀ i < totalDofs fs, ∃ d : LocalDof, d.Valid fs ∧ d.index fs = i := by
  set size := fun p : FormSpace K X × ElementTab K X => fieldDofs p.1 p.2 with hsize
  refine ⟨?_, ?_, ?_⟩
  · rintro ⟨k, a, c⟩ ⟨p, hk, ha, hc⟩
    simp only at hk ha hc
    have hj : a * p.1.nComp + c < size p := join_index ha hc
    have h1 := startOf_lt size fs (Nat.lt_succ_self k) hk
    have h2 := startOf_total size fs hk
    simp only [LocalDof.index, hk]
    have e1 : blockStart fs k = startOf size fs k := rfl
    have e2 : blockStart fs (k + 1) = startOf size fs (k + 1) := rfl
    have e3 : totalDofs fs = (fs.map size).sum := rfl
    rw [e1, e2, e3]
    simp only [Nat.succ_eq_add_one] at h1
    refine ⟨by omega, by omega, by omega⟩
  · rintro ⟨k, a, c⟩ ⟨k', a', c'⟩ ⟨p, hk, ha, hc⟩ ⟨p', hk', ha', hc'⟩ h
    simp only at hk ha hc hk' ha' hc'
    simp only [LocalDof.index, hk, hk'] at h
    obtain ⟨rfl, h2⟩ := block_unique size fs hk hk' (join_index ha hc) (join_index ha' hc') h
    obtain rfl : p = p' := by rw [hk] at hk'; exact Option.some.inj hk'
    obtain ⟨rfl, rfl⟩ := split_unique hc hc' h2
    rfl
  · intro i hi
    obtain ⟨k, p, t, hk, ht, rfl⟩ := block_exists size fs i hi
    obtain ⟨a, c, ha, hc, rfl⟩ := split_index ht
    refine ⟨⟨k, a, c⟩, ⟨p, hk, ha, hc⟩, ?_⟩
    simp only [LocalDof.index, hk]
    rfl

/-! ### C26 -/

variable [CommRing K] {functions : Dict String (Fun K X)} {iel : Nat}
  {spaces : Dict String (FormSpace K X)} {fs : Fields K X} {gs : List (Fun K X)}

/-- What the local system is: mass matrices on the diagonal blocks of fields and components, minus
the loads as residual. -/
structure IsSystem (fs : Fields K X) (gs : List (Fun K X)) (r : Vec K) (j : Mat K) : Prop where
  rn : r.n = totalDofs fs
  jn : j.n = totalDofs fs
  res : ∀ (d : LocalDof) p f, fs[d.field]? = some p → gs[d.field]? = some f → d.Valid fs →
    r.val (d.index fs) = - load p.1 p.2 f d.comp d.basis
  jac : ∀ (d e : LocalDof) p, fs[d.field]? = some p → d.Valid fs → e.Valid fs →
    j.val (d.index fs) (e.index fs) =
      if d.field = e.field ∧ d.comp = e.comp then mass p.1 p.2 d.basis e.basis else 0

/-- C26: `evaluate_form` computes the quadrature mass matrix and load, entry by entry. -/
theorem C26_entries (h : Selects functions iel spaces fs gs) :
    gs.length = fs.length ∧ ∃ r j, evaluateForm (some spaces) (some functions) iel = .ok (r, j) ∧
      IsSystem fs gs r j := by
  obtain ⟨blocks, h1, h2, h3, h4, h5⟩ := fieldSystems_spec h
  obtain ⟨r, j, hp, hrn, hjn, hr, hj⟩ := place_spec blocks h3
  refine ⟨h4, r, j, ?_, ?_⟩
  · simp only [evaluateForm, h1, bind, Except.bind, hp]
  · have hstart : ∀ k, startOf (fun b : Vec K × Mat K => b.1.n) blocks k = blockStart fs k := by
      intro k
      simp only [startOf, blockStart, List.map_take, h2]
    have hfun : ∀ (k : Nat) p, fs[k]? = some p → ∃ f, gs[k]? = some f := by
      intro k p hk
      have hlt : k < gs.length := by
        rw [h4]
        rcases Nat.lt_or_ge k fs.length with h | h
        · exact h
        · rw [List.getElem?_eq_none h] at hk; cases hk
      exact ⟨_, List.getElem?_eq_getElem hlt⟩
    refine ⟨by rw [hrn, h2]; rfl, by rw [hjn, h2]; rfl, ?_, ?_⟩
    · rintro ⟨k, a, c⟩ p f hk hf ⟨p', hk', ha, hc⟩
      simp only at hk hf hk' ha hc ⊢
      obtain rfl : p = p' := by rw [hk] at hk'; exact Option.some.inj hk'
      obtain ⟨b, hb, hbn, hbr, -⟩ := h5 k p f hk hf
      simp only [LocalDof.index, hk]
      rw [← hstart, hr k b _ hb (by rw [hbn]; exact join_index ha hc), hbr a ha c hc]
    · rintro ⟨k, a, c⟩ ⟨k', a', c'⟩ p hk ⟨p₁, hk₁, ha, hc⟩ ⟨p₂, hk₂, ha', hc'⟩
      simp only at hk hk₁ ha hc hk₂ ha' hc' ⊢
      obtain rfl : p = p₁ := by rw [hk] at hk₁; exact Option.some.inj hk₁
      obtain ⟨f, hf⟩ := hfun k p hk
      obtain ⟨f', hf'⟩ := hfun k' p₂ hk₂
      obtain ⟨b, hb, hbn, -, hbj⟩ := h5 k p f hk hf
      obtain ⟨b', hb', hbn', -, -⟩ := h5 k' p₂ f' hk₂ hf'
      simp only [LocalDof.index, hk, hk₂]
      rw [← hstart, ← hstart, hj k b _ hb (by rw [hbn]; exact join_index ha hc) k' b' _ hb'
        (by rw [hbn']; exact join_index ha' hc')]
      by_cases hkk : k = k'
      · subst hkk
        obtain rfl : p = p₂ := by rw [hk] at hk₂; exact Option.some.inj hk₂
        rw [if_pos rfl, hbj a ha c hc a' ha' c' hc']
        simp
      · rw [if_neg hkk, if_neg (fun h => hkk h.1)]

omit [CommRing K] in
theorem selects_total [CommRing K] (spaces : Dict String (FormSpace K X))
    (hf : ∀ q ∈ spaces, functions.get? q.1 ≠ none)
    (he : ∀ q ∈ spaces, iel < q.2.elements.length) :
    ∃ fs gs, Selects functions iel spaces fs gs := by
  induction spaces with
  | nil => exact ⟨[], [], .nil⟩
  | cons q rest ih =>
    obtain ⟨fs, gs, h⟩ := ih (fun x hx => hf x (by simp [hx])) (fun x hx => he x (by simp [hx]))
    obtain ⟨f, hq⟩ := Option.ne_none_iff_exists'.1 (hf q (by simp))
    exact ⟨_, _, .cons hq (List.getElem?_eq_getElem (he q (by simp))) h⟩

/-- C26: when `evaluate_form` succeeds, and the exceptions otherwise: the first field without a
function or without an element number `iel` decides. -/
theorem C26_rejects (functions : Dict String (Fun K X)) (iel : Nat)
    (spaces : Dict String (FormSpace K X)) :
    evaluateForm (K := K) (X := X) none (some functions) iel = .error .valueError ∧
    evaluateForm (K := K) (X := X) (some spaces) none iel = .error .valueError ∧
    ((∀ q ∈ spaces, functions.get? q.1 ≠ none ∧ iel < q.2.elements.length) →
      ∃ fs gs, Selects functions iel spaces fs gs) ∧
    ∀ pre q post, spaces = pre ++ q :: post →
      (∀ q ∈ pre, functions.get? q.1 ≠ none ∧ iel < q.2.elements.length) →
      (functions.get? q.1 = none →
        evaluateForm (some spaces) (some functions) iel = .error .keyError) ∧
      (functions.get? q.1 ≠ none → q.2.elements.length ≤ iel →
        evaluateForm (some spaces) (some functions) iel = .error .indexError) := by
  refine ⟨rfl, rfl, fun h => selects_total spaces (fun q hq => (h q hq).1) (fun q hq => (h q hq).2),
    ?_⟩
  rintro pre q post rfl hpre
  have key : ∀ e, fieldSystems functions iel (q :: post) = .error e →
      fieldSystems functions iel (pre ++ q :: post) = .error e := by
    intro e he
    induction pre with
    | nil => exact he
    | cons x pre ih =>
      obtain ⟨name, s⟩ := x
      obtain ⟨h1, h2⟩ := hpre (name, s) (by simp)
      obtain ⟨f, hf⟩ := Option.ne_none_iff_exists'.1 h1
      simp only at hf h2
      obtain ⟨r, hr, -⟩ := fieldRes_spec s s.elements[iel] f
      obtain ⟨j, hj, -⟩ := fieldJac_spec s s.elements[iel]
      have := ih (fun y hy => hpre y (by simp [hy]))
      simp only [List.cons_append, fieldSystems, Dict.getItem, hf, getIdx,
        List.getElem?_eq_getElem h2, hr, hj, bind, Except.bind, this]
  obtain ⟨name, s⟩ := q
  constructor
  · intro hn
    have := key .keyError (by simp only [fieldSystems, Dict.getItem, hn, bind, Except.bind])
    simp only [evaluateForm, this, bind, Except.bind]
  · intro hn hl
    obtain ⟨f, hf⟩ := Option.ne_none_iff_exists'.1 hn
    have := key .indexError (by
      simp only at hf hl
      simp only [fieldSystems, Dict.getItem, hf, getIdx, List.getElem?_eq_none hl, bind,
        Except.bind])
    simp only [evaluateForm, this, bind, Except.bind]

theorem mass_symm (s : FormSpace K X) (el : ElementTab K X) (a b : Nat) :
    mass s el a b = mass s el b a := by
  unfold mass
  refine Finset.sum_congr rfl fun i _ => Finset.sum_congr rfl fun d _ => ?_
  ring

/-- C26: the local matrix is symmetric. -/
theorem C26_symmetric {r : Vec K} {j : Mat K} (h : IsSystem fs gs r j) (i i' : Nat)
    (hi : i < j.n) (hi' : i' < j.n) : j.val i i' = j.val i' i := by
  rw [h.jn] at hi hi'
  obtain ⟨d, hd, rfl⟩ := (C25_numbering fs).2.2 i hi
  obtain ⟨e, he, rfl⟩ := (C25_numbering fs).2.2 i' hi'
  obtain ⟨p, hp, -⟩ := id hd
  obtain ⟨q, hq, -⟩ := id he
  rw [h.jac d e p hp hd he, h.jac e d q hq he hd]
  by_cases hc : d.field = e.field ∧ d.comp = e.comp
  · rw [if_pos hc, if_pos ⟨hc.1.symm, hc.2.symm⟩]
    rw [hc.1, hq] at hp
    obtain rfl := Option.some.inj hp
    exact mass_symm _ _ _ _
  · rw [if_neg hc, if_neg (fun h => hc ⟨h.1.symm, h.2.symm⟩)]

/-- Coefficients of field `k`, component `c`. -/
def coeff (fs : Fields K X) (x : Nat → K) (k c a : Nat) : K := x ((⟨k, a, c⟩ : LocalDof).index fs)

/-- One row of the local matrix times a vector. -/
theorem row_mul {r : Vec K} {j : Mat K} (h : IsSystem fs gs r j) (x : Nat → K) (d : LocalDof)
    (p : FormSpace K X × ElementTab K X) (hp : fs[d.field]? = some p) (hd : d.Valid fs) :
    ∑ i ∈ Finset.range j.n, j.val (d.index fs) i * x i =
      ∑ b ∈ Finset.range p.2.nPhi, mass p.1 p.2 d.basis b * coeff fs x d.field d.comp b := by
  set size := fun p : FormSpace K X × ElementTab K X => fieldDofs p.1 p.2 with hsize
  have hsum := sum_blocks size (fun i => j.val (d.index fs) i * x i) fs 0
  simp only [Nat.zero_add] at hsum
  rw [h.jn]
  refine hsum.trans ?_
  have hidx : ∀ (k a c : Nat) q, fs[k]? = some q →
      (⟨k, a, c⟩ : LocalDof).index fs = startOf size fs k + (a * q.1.nComp + c) := by
    intro k a c q hk
    simp only [LocalDof.index, hk]; rfl
  obtain ⟨p', hp', ha, hc⟩ := id hd
  obtain rfl : p = p' := by rw [hp] at hp'; exact Option.some.inj hp'
  have hterm : ∀ (k : Nat) q, fs[k]? = some q →
      ∑ t ∈ Finset.range (size q), j.val (d.index fs) (startOf size fs k + t) *
        x (startOf size fs k + t) =
      ∑ b ∈ Finset.range q.2.nPhi, ∑ c ∈ Finset.range q.1.nComp,
        (if d.field = k ∧ d.comp = c then mass p.1 p.2 d.basis b else 0) * coeff fs x k c b := by
    intro k q hk
    refine (sum_interleaved q.1.nComp (fun t => j.val (d.index fs) (startOf size fs k + t) *
        x (startOf size fs k + t)) q.2.nPhi).trans ?_
    refine Finset.sum_congr rfl fun b hb => Finset.sum_congr rfl fun c hc => ?_
    have hb := Finset.mem_range.1 hb
    have hc := Finset.mem_range.1 hc
    rw [← hidx k b c q hk, h.jac d ⟨k, b, c⟩ p hp hd ⟨q, hk, hb, hc⟩]
    rfl
  rw [sum_withStart size _ (d.index fs) fs 0 d.field p (d.basis * p.1.nComp + d.comp) hp
    (join_index ha hc)]
  · simp only [Nat.zero_add]
    rw [hterm d.field p hp]
    refine Finset.sum_congr rfl fun b _ => ?_
    rw [Finset.sum_eq_single d.comp]
    · simp
    · intro c' _ hne
      rw [if_neg (fun h => hne h.2.symm), zero_mul]
    · intro hn; exact absurd (Finset.mem_range.2 hc) hn
  · rw [Nat.zero_add]
    exact hidx d.field d.basis d.comp p hp
  · intro q hq hnot
    obtain ⟨k, hk, hs⟩ := withStart_get size fs 0 q hq
    rw [Nat.zero_add] at hs
    simp only [hs]
    rw [hterm k q.2 hk]
    refine Finset.sum_eq_zero fun b _ => Finset.sum_eq_zero fun c _ => ?_
    rw [if_neg, zero_mul]
    rintro ⟨rfl, -⟩
    apply hnot
    rw [hp] at hk
    obtain rfl := Option.some.inj hk
    have := hidx d.field d.basis d.comp q.2 hp
    have hj : d.basis * q.2.1.nComp + d.comp < size q.2 := join_index ha hc
    have e : (⟨d.field, d.basis, d.comp⟩ : LocalDof) = d := rfl
    rw [e] at this
    rw [this, hs]
    omega

/-- Value of direction `dir` of the discrete function with coefficients `y` at point `q`. -/
def interp (el : ElementTab K X) (y : Nat → K) (q dir : Nat) : K :=
  ∑ a ∈ Finset.range el.nPhi, y a * el.phi q a dir

theorem mass_mul (s : FormSpace K X) (el : ElementTab K X) (y : Nat → K) (a : Nat) :
    ∑ b ∈ Finset.range el.nPhi, mass s el a b * y b =
      ∑ q ∈ Finset.range el.nPts, ∑ dir ∈ Finset.range (nDir s el),
        el.det q * el.weights q * el.phi q a dir * interp el y q dir := by
  simp only [mass, interp, Finset.sum_mul, Finset.mul_sum]
  rw [Finset.sum_comm]
  refine Finset.sum_congr rfl fun q _ => ?_
  rw [Finset.sum_comm]
  refine Finset.sum_congr rfl fun d _ => Finset.sum_congr rfl fun b _ => ?_
  ring

/-- C26: coefficients reproducing the functions at all quadrature points solve the local system. -/
theorem C26_consistent {r : Vec K} {j : Mat K} (h : IsSystem fs gs r j)
    (hlen : gs.length = fs.length) (x : Nat → K)
    (hx : ∀ (k : Nat) p f, fs[k]? = some p → gs[k]? = some f → ∀ c < p.1.nComp,
      ∀ q < p.2.nPts, ∀ dir < nDir p.1 p.2,
        interp p.2 (coeff fs x k c) q dir = f p.2.x c dir q) :
    ∀ i < j.n, ∑ i' ∈ Finset.range j.n, j.val i i' * x i' = - r.val i := by
  intro i hi
  rw [h.jn] at hi
  obtain ⟨d, hd, rfl⟩ := (C25_numbering fs).2.2 i hi
  obtain ⟨p, hp, ha, hc⟩ := id hd
  have hlt : d.field < gs.length := by
    rw [hlen]
    rcases Nat.lt_or_ge d.field fs.length with h | h
    · exact h
    · rw [List.getElem?_eq_none h] at hp; cases hp
  have hf := List.getElem?_eq_getElem hlt
  rw [row_mul h x d p hp hd, mass_mul, h.res d p _ hp hf hd, neg_neg, load]
  refine Finset.sum_congr rfl fun q hq => Finset.sum_congr rfl fun dir hdir => ?_
  rw [hx d.field p _ hp hf d.comp hc q (Finset.mem_range.1 hq) dir (Finset.mem_range.1 hdir)]

/-- The quadratic form of one field and component is a weighted sum of squares. -/
theorem quad_field (s : FormSpace K X) (el : ElementTab K X) (y : Nat → K) :
    ∑ a ∈ Finset.range el.nPhi, y a * ∑ b ∈ Finset.range el.nPhi, mass s el a b * y b =
      ∑ q ∈ Finset.range el.nPts, ∑ dir ∈ Finset.range (nDir s el),
        el.det q * el.weights q * (interp el y q dir * interp el y q dir) := by
  simp only [mass_mul, Finset.mul_sum]
  rw [Finset.sum_comm]
  refine Finset.sum_congr rfl fun q _ => ?_
  rw [Finset.sum_comm]
  refine Finset.sum_congr rfl fun d _ => ?_
  have : ∀ a, y a * (el.det q * el.weights q * el.phi q a d * interp el y q d) =
      (y a * el.phi q a d) * (el.det q * el.weights q * interp el y q d) := fun a => by ring
  simp only [this]
  rw [← Finset.sum_mul]
  change interp el y q d * _ = _
  ring

/-- The quadratic form of the local matrix, field by field and component by component. -/
theorem quad_form {r : Vec K} {j : Mat K} (h : IsSystem fs gs r j) (x : Nat → K) :
    ∑ i ∈ Finset.range j.n, x i * ∑ i' ∈ Finset.range j.n, j.val i i' * x i' =
      ((withStart (fun p : FormSpace K X × ElementTab K X => fieldDofs p.1 p.2) 0 fs).map fun q =>
        ∑ c ∈ Finset.range q.2.1.nComp, ∑ a ∈ Finset.range q.2.2.nPhi,
          x (q.1 + (a * q.2.1.nComp + c)) * ∑ b ∈ Finset.range q.2.2.nPhi,
            mass q.2.1 q.2.2 a b * x (q.1 + (b * q.2.1.nComp + c))).sum := by
  set size := fun p : FormSpace K X × ElementTab K X => fieldDofs p.1 p.2 with hsize
  set y := fun i => ∑ i' ∈ Finset.range j.n, j.val i i' * x i' with hy
  have hsum := sum_blocks size (fun i => x i * y i) fs 0
  simp only [Nat.zero_add] at hsum
  have e : j.n = (fs.map size).sum := h.jn
  have e' : ∑ i ∈ Finset.range j.n, x i * y i = ∑ i ∈ Finset.range (fs.map size).sum, x i * y i := by
    rw [e]
  refine e'.trans (hsum.trans ?_)
  congr 1
  apply List.map_congr_left
  intro q hq
  obtain ⟨k, hk, hs⟩ := withStart_get size fs 0 q hq
  rw [Nat.zero_add] at hs
  refine (sum_interleaved q.2.1.nComp (fun t => x (q.1 + t) * y (q.1 + t)) q.2.2.nPhi).trans ?_
  rw [Finset.sum_comm]
  refine Finset.sum_congr rfl fun c hc => Finset.sum_congr rfl fun a ha => ?_
  have ha := Finset.mem_range.1 ha
  have hc := Finset.mem_range.1 hc
  have hidx : ∀ a c, (⟨k, a, c⟩ : LocalDof).index fs = q.1 + (a * q.2.1.nComp + c) := by
    intro a c
    simp only [LocalDof.index, hk]
    rw [hs]; rfl
  have := row_mul h x ⟨k, a, c⟩ q.2 hk ⟨q.2, hk, ha, hc⟩
  simp only [coeff, hidx] at this
  rw [hy]
  simp only [this]

section
variable [LinearOrder K] [IsStrictOrderedRing K]

/-- C26: with non-negative weights and determinants the local matrix is positive semidefinite. -/
theorem C26_positive_semidefinite {r : Vec K} {j : Mat K} (h : IsSystem fs gs r j)
    (hw : ∀ p ∈ fs, ∀ q < p.2.nPts, 0 ≤ p.2.det q * p.2.weights q) (x : Nat → K) :
    0 ≤ ∑ i ∈ Finset.range j.n, x i * ∑ i' ∈ Finset.range j.n, j.val i i' * x i' := by
  rw [quad_form h]
  apply List.sum_nonneg
  intro v hv
  obtain ⟨q, hq, rfl⟩ := List.mem_map.1 hv
  obtain ⟨k, hk, hs⟩ := withStart_get _ fs 0 q hq
  have hmem : q.2 ∈ fs := List.mem_of_getElem? hk
  refine Finset.sum_nonneg fun c _ => ?_
  rw [quad_field q.2.1 q.2.2 (fun a => x (q.1 + (a * q.2.1.nComp + c)))]
  refine Finset.sum_nonneg fun i hi => Finset.sum_nonneg fun d _ => ?_
  exact mul_nonneg (hw q.2 hmem i (Finset.mem_range.1 hi)) (mul_self_nonneg _)

/-- C26: with positive weights and determinants and a quadrature that tells the basis functions
apart, the local matrix is positive definite, so that the projected coefficients are unique. -/
theorem C26_positive_definite {r : Vec K} {j : Mat K} (h : IsSystem fs gs r j)
    (hw : ∀ p ∈ fs, ∀ q < p.2.nPts, 0 < p.2.det q * p.2.weights q)
    (huni : ∀ p ∈ fs, ∀ y : Nat → K,
      (∀ q < p.2.nPts, ∀ d < nDir p.1 p.2, interp p.2 y q d = 0) → ∀ a < p.2.nPhi, y a = 0)
    (x : Nat → K) (i : Nat) (hi : i < j.n) (hne : x i ≠ 0) :
    0 < ∑ i ∈ Finset.range j.n, x i * ∑ i' ∈ Finset.range j.n, j.val i i' * x i' := by
  refine lt_of_le_of_ne
    (C26_positive_semidefinite h (fun p hp q hq => (hw p hp q hq).le) x) fun h0 => ?_
  rw [quad_form h] at h0
  have hall : ∀ q ∈ withStart (fun p : FormSpace K X × ElementTab K X => fieldDofs p.1 p.2) 0 fs,
      (0 : K) ≤ ∑ c ∈ Finset.range q.2.1.nComp, ∑ a ∈ Finset.range q.2.2.nPhi,
          x (q.1 + (a * q.2.1.nComp + c)) * ∑ b ∈ Finset.range q.2.2.nPhi,
            mass q.2.1 q.2.2 a b * x (q.1 + (b * q.2.1.nComp + c)) := by
    intro q hq
    obtain ⟨k, hk, hs⟩ := withStart_get _ fs 0 q hq
    have hmem : q.2 ∈ fs := List.mem_of_getElem? hk
    refine Finset.sum_nonneg fun c _ => ?_
    rw [quad_field q.2.1 q.2.2 (fun a => x (q.1 + (a * q.2.1.nComp + c)))]
    refine Finset.sum_nonneg fun i hi => Finset.sum_nonneg fun d _ => ?_
    exact mul_nonneg (hw q.2 hmem i (Finset.mem_range.1 hi)).le (mul_self_nonneg _)
  rw [h.jn] at hi
  obtain ⟨d, hd, rfl⟩ := (C25_numbering fs).2.2 i hi
  obtain ⟨p, hp, ha, hc⟩ := id hd
  have hmem : p ∈ fs := List.mem_of_getElem? hp
  set size := fun p : FormSpace K X × ElementTab K X => fieldDofs p.1 p.2 with hsize
  have hin : (startOf size fs d.field, p) ∈ withStart size 0 fs := by
    have : ∀ (bl : Fields K X) (s k : Nat), bl[k]? = some p →
        (s + startOf size bl k, p) ∈ withStart size s bl := by
      intro bl
      induction bl with
      | nil => intro s k hk; simp at hk
      | cons b bl ih =>
        intro s k hk
        cases k with
        | zero =>
          obtain rfl : b = p := by simpa using hk
          simp [withStart, startOf]
        | succ k =>
          have := ih (s + size b) k (by simpa using hk)
          have e : startOf size (b :: bl) (k + 1) = size b + startOf size bl k := by simp [startOf]
          rw [e, ← Nat.add_assoc]
          exact List.mem_cons_of_mem _ this
    simpa using this fs 0 d.field hp
  have hzero : ∀ (l : List K), (∀ v ∈ l, 0 ≤ v) → l.sum = 0 → ∀ v ∈ l, v = 0 := by
    intro l
    induction l with
    | nil => simp
    | cons v l ih =>
      intro hn hs
      have h1 := hn v (by simp)
      have h2 : 0 ≤ l.sum := List.sum_nonneg fun w hw => hn w (by simp [hw])
      rw [List.sum_cons] at hs
      have h3 : v = 0 := by linarith
      have h4 : l.sum = 0 := by linarith
      intro w hw
      rcases List.mem_cons.1 hw with rfl | hw
      · exact h3
      · exact ih (fun w hw => hn w (by simp [hw])) h4 w hw
  have hterm := hzero _ (by
    intro v hv
    obtain ⟨q, hq, rfl⟩ := List.mem_map.1 hv
    exact hall q hq) h0.symm _ (List.mem_map.2 ⟨_, hin, rfl⟩)
  simp only at hterm
  have hnn : ∀ c ∈ Finset.range p.1.nComp, (0 : K) ≤ ∑ a ∈ Finset.range p.2.nPhi,
      x (startOf size fs d.field + (a * p.1.nComp + c)) * ∑ b ∈ Finset.range p.2.nPhi,
        mass p.1 p.2 a b * x (startOf size fs d.field + (b * p.1.nComp + c)) := by
    intro c _
    rw [quad_field p.1 p.2 (fun a => x (startOf size fs d.field + (a * p.1.nComp + c)))]
    refine Finset.sum_nonneg fun i hi => Finset.sum_nonneg fun d _ => ?_
    exact mul_nonneg (hw p hmem i (Finset.mem_range.1 hi)).le (mul_self_nonneg _)
  have hcz := (Finset.sum_eq_zero_iff_of_nonneg hnn).1 hterm d.comp (Finset.mem_range.2 hc)
  rw [quad_field p.1 p.2 (fun a => x (startOf size fs d.field + (a * p.1.nComp + d.comp)))] at hcz
  have hpz := (Finset.sum_eq_zero_iff_of_nonneg (fun q hq => Finset.sum_nonneg fun d _ =>
    mul_nonneg (hw p hmem q (Finset.mem_range.1 hq)).le (mul_self_nonneg _))).1 hcz
  have := huni p hmem (fun a => x (startOf size fs d.field + (a * p.1.nComp + d.comp))) (by
    intro q hq dir hdir
    have h1 := hpz q (Finset.mem_range.2 hq)
    have h2 := (Finset.sum_eq_zero_iff_of_nonneg (fun d _ =>
      mul_nonneg (hw p hmem q hq).le (mul_self_nonneg _))).1 h1 dir (Finset.mem_range.2 hdir)
    rcases mul_eq_zero.1 h2 with h3 | h3
    · exact absurd h3 (hw p hmem q hq).ne'
    · exact mul_self_eq_zero.1 h3) d.basis ha
  apply hne
  simp only [LocalDof.index, hp]
  exact this

end

/-! ### The hypotheses are satisfiable -/

/-- Linear elements on a segment of length 2 with a two point rule exact to first order only. -/
def exampleTab : ElementTab ℚ Unit :=
  { dim := 1, nPts := 2, nPhi := 2, weights := fun _ => 1 / 2, det := fun _ => 2,
    phi := fun i a _ => if i = a then 1 else 0, x := () }

/-- Two fields: a vector field with two components and a scalar field. -/
def exampleSpaces : Dict String (FormSpace ℚ Unit) :=
  [("u", ⟨2, true, [exampleTab]⟩), ("p", ⟨1, true, [exampleTab]⟩)]

/-- `u = (1 + i, 10 + i)`, `p = 7` at the points `i = 0, 1`. -/
def exampleFunctions : Dict String (Fun ℚ Unit) :=
  [("p", fun _ _ _ _ => 7), ("u", fun _ c _ i => if c = 0 then 1 + (i : ℚ) else 10 + (i : ℚ))]

def exampleFields : Fields ℚ Unit := exampleSpaces.map fun q => (q.2, exampleTab)

example : Selects exampleFunctions 0 exampleSpaces exampleFields
    [fun _ c _ i => if c = 0 then 1 + (i : ℚ) else 10 + (i : ℚ), fun _ _ _ _ => 7] :=
  .cons rfl rfl (.cons rfl rfl .nil)

example : ∃ r j, evaluateForm (some exampleSpaces) (some exampleFunctions) 0 = .ok (r, j) ∧
    r.n = 6 ∧ (List.range 6).map r.val = [-1, -10, -2, -11, -7, -7] ∧
    (List.range 6).map (j.val 2) = [0, 0, 1, 0, 0, 0] := by
  refine ⟨_, _, rfl, rfl, ?_, ?_⟩ <;> decide +kernel

/-- positive weights, and points that tell the basis functions apart -/
example : (∀ p ∈ exampleFields, ∀ q < p.2.nPts, 0 < p.2.det q * p.2.weights q) ∧
    ∀ p ∈ exampleFields, ∀ y : Nat → ℚ,
      (∀ q < p.2.nPts, ∀ d < nDir p.1 p.2, interp p.2 y q d = 0) → ∀ a < p.2.nPhi, y a = 0 := by
  have hp : ∀ p ∈ exampleFields, p.2 = exampleTab ∧ nDir p.1 p.2 = 1 := by
    intro p hp
    simp only [exampleFields, exampleSpaces, List.map_cons, List.map_nil, List.mem_cons,
      List.not_mem_nil, or_false] at hp
    rcases hp with rfl | rfl <;> exact ⟨rfl, rfl⟩
  constructor
  · intro p h q _
    rw [(hp p h).1]
    show (0 : ℚ) < 2 * (1 / 2)
    norm_num
  · intro p h y hy a ha
    rw [(hp p h).1] at ha hy
    have := hy a ha 0 (by rw [← (hp p h).1, (hp p h).2]; omega)
    simp [interp, exampleTab, Finset.sum_ite_eq] at this
    exact this (Nat.lt_succ_iff.1 ha)

#print axioms C25_slice
#print axioms C25_partition
#print axioms C25_numbering
#print axioms C26_entries
#print axioms C26_rejects
#print axioms C26_symmetric
#print axioms C26_consistent
#print axioms C26_positive_semidefinite
#print axioms C26_positive_definite

end Verif.L2Form
