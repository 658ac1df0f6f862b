/- L2 projection: helper lemmas. -/
import Verif.Spec.Projector
import Verif.Lemmas.Assembly

namespace Verif.Projector
open Space Assembly

variable {K : Type}

theorem forEach_filter {α σ : Type} (q : α → Bool) (f : α → Step σ) (l : List α) (s : σ) :
    forEach f (l.filter q) s = forEach (fun a s => if q a then f a s else (s, none)) l s := by
  induction l generalizing s with
  | nil => rfl
  | cons a l ih =>
    by_cases h : q a
    · simp only [List.filter_cons, h, if_true, forEach]
      rcases f a s with ⟨s', _ | e⟩
      · exact ih s'
      · rfl
    · simp only [List.filter_cons, h, forEach]
      exact ih s

theorem gather_zeros [Zero K] (n : Nat) : ∀ dest : List Nat, (∀ x ∈ dest, x < n) →
    gather (List.replicate n (0 : K)) dest = .ok (List.replicate dest.length 0) := by
  intro dest
  induction dest with
  | nil => intro _; rfl
  | cons x dest ih =>
    intro h
    have hx := h x (by simp)
    have := ih (fun y hy => h y (by simp [hy]))
    unfold gather at this ⊢
    simp [MeshGraph.mapRes, getIdx, hx, this, List.replicate_succ]

section
variable [AddCommMonoid K]

/-- Without repetitions the fancy assignment adds to every destination. -/
theorem fancyAdd_ok : ∀ (dest : List Nat) (r a : List K), dest.Nodup → (∀ x ∈ dest, x < a.length) →
    r.length = dest.length →
    ∃ R, fancyAdd a dest r = .ok R ∧ R.length = a.length ∧ ∀ (i : Nat) x, a[i]? = some x →
      R[i]? = some (x + ((dest.zip r).map fun p => if p.1 = i then p.2 else 0).sum) := by
  intro dest r a hn hlt hl
  have hg : ∀ dest : List Nat, (∀ x ∈ dest, x < a.length) → ∃ old, gather a dest = .ok old ∧
      old.length = dest.length ∧ ∀ (k : Nat) d, dest[k]? = some d → old[k]? = a[d]? := by
    intro dest
    induction dest with
    | nil => intro _; exact ⟨[], rfl, rfl, by simp⟩
    | cons d dest ih =>
      intro h
      obtain ⟨old, h1, h2, h3⟩ := ih (fun x hx => h x (by simp [hx]))
      have hd := h d (by simp)
      refine ⟨a[d] :: old, ?_, by simp [h2], ?_⟩
      · unfold gather at h1 ⊢
        simp [MeshGraph.mapRes, getIdx, hd, h1]
      · intro k e hk
        cases k with
        | zero =>
          obtain rfl : d = e := by simpa using hk
          simp [hd]
        | succ k => simpa using h3 k e (by simpa using hk)
  obtain ⟨old, h1, h2, h3⟩ := hg dest hlt
  refine ⟨_, by simp only [fancyAdd, hl, ne_eq, not_true, if_false, h1]; rfl, ?_, ?_⟩
  · have : ∀ (l : List (Nat × K × K)) (b : List K),
        (l.foldl (fun a p => a.set p.1 (p.2.1 + p.2.2)) b).length = b.length := by
      intro l
      induction l with
      | nil => simp
      | cons p l ih => intro b; simp [ih]
    exact this _ a
  · -- writing distinct positions one after the other
    have key : ∀ (dest : List Nat) (old r : List K) (b : List K), dest.Nodup →
        old.length = dest.length → r.length = dest.length → (∀ x ∈ dest, x < b.length) →
        (∀ (k : Nat) d, dest[k]? = some d → old[k]? = b[d]?) → ∀ (i : Nat) x, b[i]? = some x →
        ((dest.zip (old.zip r)).foldl (fun a p => a.set p.1 (p.2.1 + p.2.2)) b)[i]? =
          some (x + ((dest.zip r).map fun p => if p.1 = i then p.2 else 0).sum) := by
      intro dest
      induction dest with
      | nil => intro old r b _ _ _ _ _ i x hi; simpa using hi
      | cons d dest ih =>
        intro old r b hn ho hr hlt hold i x hi
        obtain ⟨o, old, rfl⟩ : ∃ o t, old = o :: t := by
          cases old with
          | nil => simp at ho
          | cons o t => exact ⟨o, t, rfl⟩
        obtain ⟨v, r, rfl⟩ : ∃ o t, r = o :: t := by
          cases r with
          | nil => simp at hr
          | cons o t => exact ⟨o, t, rfl⟩
        simp only [List.nodup_cons] at hn
        have hd := hlt d (by simp)
        have ho0 : b[d] = o := by
          have := hold 0 d (by simp)
          rw [List.getElem?_eq_getElem hd] at this
          simpa using this.symm
        have hne : ∀ (k : Nat) e, dest[k]? = some e → d ≠ e := by
          rintro k e hk rfl
          exact hn.1 (List.mem_of_getElem? hk)
        have hold' : ∀ (k : Nat) e, dest[k]? = some e → old[k]? = (b.set d (o + v))[e]? := by
          intro k e hk
          rw [List.getElem?_set_ne (hne k e hk)]
          have := hold (k + 1) e (by simpa using hk)
          simpa using this
        simp only [List.zip_cons_cons, List.foldl_cons, List.map_cons, List.sum_cons]
        by_cases hdi : d = i
        · subst hdi
          have hx : o = x := by
            rw [List.getElem?_eq_getElem hd, ho0] at hi; simpa using hi
          rw [ih old r (b.set d (o + v)) hn.2 (by simpa using ho) (by simpa using hr)
            (fun y hy => by simpa using hlt y (by simp [hy])) hold' d (o + v) (by simp [hd])]
          simp [hx, add_assoc]
        · rw [ih old r (b.set d (o + v)) hn.2 (by simpa using ho) (by simpa using hr)
            (fun y hy => by simpa using hlt y (by simp [hy])) hold' i x
            (by rw [List.getElem?_set_ne hdi]; exact hi), if_neg hdi, zero_add]
    exact key dest old r a hn h2 hl hlt h3

end

section
variable [Field K] [LinearOrder K]

/-- What one entry adds to position `i, j`. -/
def keptAt (sym : Bool) (i j : Nat) (p : Nat × Nat × K) : K :=
  if p.1 = i ∧ p.2.1 = j then (if isClose p.2.2 || (sym && !decide (p.1 ≤ p.2.1)) then 0 else p.2.2)
  else 0

theorem setKept_ok (sym : Bool) (c : Contribution K) (s : Sys K) (hf : c.Fits s.jac.n) :
    setKept sym c.jac.flatten (c.dest.flatMap fun d => List.replicate c.dest.length d)
      (List.replicate c.dest.length c.dest).flatten s =
      ({ s with jac := ⟨s.jac.n, fun i j => s.jac.val i j +
        ((triples c.dest c.dest c.jac).map (keptAt sym i j)).sum⟩ }, none) := by
  obtain ⟨hl1, hl2⟩ := length_rows c.dest c.dest c.jac hf.jac_length hf.row_length
  set data := c.jac.flatten with hdata
  set row := c.dest.flatMap fun d => List.replicate c.dest.length d with hrow
  set col := (List.replicate c.dest.length c.dest).flatten with hcol
  let f : Nat → Nat → K → Step (Sys K) := fun r c v s =>
    if isClose v || (sym && !decide (r ≤ c)) then (s, none) else setValue r c v s
  have h1 : setKept sym data row col s = forEach (fun k => withRes (getIdx row k) fun r =>
      withRes (getIdx col k) fun c => withRes (getIdx data k) fun v => f r c v)
      (List.range data.length) s := by
    unfold setKept
    rw [forEach_filter]
    apply forEach_congr
    intro k hk
    have hk := List.mem_range.1 hk
    have hkr : k < row.length := by rw [hl1]; exact hk
    have hkc : k < col.length := by rw [hl2]; exact hk
    funext s
    simp only [List.getElem?_eq_getElem hk, List.getElem?_eq_getElem hkr,
      List.getElem?_eq_getElem hkc, getIdx, withRes, f]
    by_cases hclose : isClose data[k]
    · simp [hclose]
    · simp only [hclose, Bool.not_false, if_true, Bool.false_or]
      split <;> rfl
  rw [h1, forEach_range_zip row col data hl1 hl2 f,
    zip_eq_triples c.dest c.dest c.jac hf.jac_length hf.row_length]
  have h2 : forEach (fun p : Nat × Nat × K => f p.1 p.2.1 p.2.2) (triples c.dest c.dest c.jac) s =
      forEach (fun p : Nat × Nat × K => setValue p.1 p.2.1 p.2.2)
        ((triples c.dest c.dest c.jac).filter fun p =>
          !(isClose p.2.2 || (sym && !decide (p.1 ≤ p.2.1)))) s := by
    rw [forEach_filter]
    apply forEach_congr
    intro p _
    funext s
    by_cases h : (isClose p.2.2 || (sym && !decide (p.1 ≤ p.2.1))) = true
    · simp only [f, h, if_true, Bool.not_true, Bool.false_eq_true, if_false]
    · have h' := Bool.eq_false_iff.2 h
      simp only [f, h', Bool.false_eq_true, if_false, Bool.not_false, if_true]
  rw [h2, setValues_ok s.jac.n _ s rfl]
  · congr 3
    funext i j
    congr 1
    generalize triples c.dest c.dest c.jac = l
    induction l with
    | nil => rfl
    | cons p l ih =>
      by_cases h : (isClose p.2.2 || (sym && !decide (p.1 ≤ p.2.1))) = true
      · rw [List.filter_cons_of_neg (by simp [h]), ih, List.map_cons, List.sum_cons]
        simp [keptAt, h]
      · rw [List.filter_cons_of_pos (by rw [Bool.eq_false_iff.2 h]; rfl), List.map_cons, List.sum_cons, ih,
          List.map_cons, List.sum_cons]
        congr 1
        simp only [keptAt]
        rw [if_neg h]
  · intro p hp
    have hp := (List.mem_filter.1 hp).1
    simp only [triples, List.mem_flatMap, List.mem_map] at hp
    obtain ⟨r, hr, q, hq, rfl⟩ := hp
    exact ⟨hf.lt _ (List.of_mem_zip hr).1, hf.lt _ (List.of_mem_zip hq).1⟩

theorem isClose_iff (v : K) : isClose v = true ↔ Negligible v := by
  have h : (1 / 10 ^ 5 * (1 / 10 ^ 16) : K) = 1 / 10 ^ 21 := by
    rw [one_div_mul_one_div, ← pow_add]
  unfold isClose Negligible
  rw [decide_eq_true_eq, h]

/-- The sum of the kept entries: nothing below the diagonal with the symmetric option, else the
pruned contribution. -/
theorem sum_keptAt (sym : Bool) (c : Contribution K) (i j : Nat) :
    ((triples c.dest c.dest c.jac).map (keptAt sym i j)).sum =
      if sym = true ∧ j < i then 0 else (pruned c).jacAt i j := by
  by_cases h : sym = true ∧ j < i
  · rw [if_pos h]
    apply List.sum_eq_zero
    intro x hx
    obtain ⟨p, -, rfl⟩ := List.mem_map.1 hx
    unfold keptAt
    split
    · next hij =>
      rw [if_pos]
      have : ¬ p.1 ≤ p.2.1 := by omega
      simp [h.1, this]
    · rfl
  · rw [if_neg h]
    simp only [triples, Contribution.jacAt, pruned, ← isClose_iff, sum_map_flatMap, List.map_map, List.zip_map_right]
    congr 1
    apply List.map_congr_left
    intro r _
    simp only [Function.comp, Prod.map_fst, Prod.map_snd, id_eq, List.zip_map_right, List.map_map]
    congr 1
    apply List.map_congr_left
    intro p _
    simp only [Function.comp, keptAt, Prod.map_fst, Prod.map_snd, id_eq]
    split
    · next hij =>
      have hle : sym = true → r.1 ≤ p.1 := by
        intro hs
        by_contra hlt
        exact h ⟨hs, by omega⟩
      cases sym with
      | false => simp
      | true => simp [hle rfl]
    · rfl

end

end Verif.Projector
