/-
Property theorems C133: the transfer of finite volume solutions
(examples/cauchy_elasticity/mfe_elasticity_example_1.py:418-487 and its copies).
-/
import Verif.Lemmas.FvTransfer
import Mathlib.Tactic.NormNum

namespace Verif.FvTransfer
open MeshGraph Trace
variable {K : Type}

/-- C133: when both lists of points have the same hashes, `compute_permutation` gives a
permutation that takes every target to an origin with its hash. -/
theorem C133_permutation (argsort : List Int → List Nat) (ha : ∀ l, IsArgsort l (argsort l))
    (hash : List Char → Int) (str : K → List Char) (round : Pt K → Pt K)
    (origin target : List (Pt K))
    (hp : (origin.map fun x => hash (key str (round x))).Perm
      (target.map fun x => hash (key str (round x)))) :
    ∃ p, computePermutation argsort hash str round origin target = .ok p ∧
      p.Perm (List.range target.length) ∧
      ∀ i j : Nat, p[i]? = some j →
        (origin.map fun x => hash (key str (round x)))[j]? =
          (target.map fun x => hash (key str (round x)))[i]? := by
  unfold computePermutation
  generalize (origin.map fun x => hash (key str (round x))) = ho at *
  have hlt : (target.map fun x => hash (key str (round x))).length = target.length := by simp
  generalize (target.map fun x => hash (key str (round x))) = ht at *
  have hA := ha ho
  have hB := ha ht
  have hC := ha ((argsort ht).map Int.ofNat)
  obtain ⟨hAlt, hAl⟩ := perm_lt hA
  obtain ⟨hBlt, hBl⟩ := perm_lt hB
  obtain ⟨hClt, hCl⟩ := perm_lt hC
  have hl := hp.length_eq
  have hidx : ∀ i ∈ argsort ((argsort ht).map Int.ofNat), i < (argsort ho).length := by
    intro i hi
    have := hClt i hi
    simp only [List.length_map] at this
    omega
  obtain ⟨p, hf⟩ := fancy_total hidx
  have hpe : p = (argsort ((argsort ht).map Int.ofNat)).filterMap fun i => (argsort ho)[i]? := forall₂_sel hf
  refine ⟨p, fancy_iff.2 hf, ?_, ?_⟩
  · rw [hpe]
    have h1 := hC.1.filterMap fun i => (argsort ho)[i]?
    have h2 : ((argsort ht).map Int.ofNat).length = (argsort ho).length := by simp; omega
    rw [h2, sel_range] at h1
    rw [← hlt, ← hl]
    exact h1.trans hA.1
  · intro i j hij
    have hi : i < ht.length := by
      have h1 : i < p.length := (List.getElem?_eq_some_iff.1 hij).1
      have h2 := hf.length_eq
      simp only [List.length_map] at hCl
      omega
    obtain ⟨m, hm1, hm2⟩ := argsort_twice hB hC i hi
    have h3 := (sel_get (argsort ho) _ hidx).2 i m hm1
    rw [← hpe, hij] at h3
    have h4 := (sel_get ho _ hAlt).2 m j h3.symm
    have h5 := (sel_get ht _ hBlt).2 m i hm2
    have h6 : ((argsort ho).filterMap fun i => ho[i]?) = (argsort ht).filterMap fun i => ht[i]? :=
      List.Perm.eq_of_pairwise' hA.2 hB.2 ((sel_perm hA).trans (hp.trans (sel_perm hB).symm))
    rw [← h4, ← h5, h6]

/-- C133: with the same hashes in the same order nothing is moved. -/
theorem C133_same (argsort : List Int → List Nat) (ha : ∀ l, IsArgsort l (argsort l))
    (hash : List Char → Int) (str : K → List Char) (round : Pt K → Pt K)
    (origin target : List (Pt K))
    (hp : (origin.map fun x => hash (key str (round x))) =
      (target.map fun x => hash (key str (round x)))) :
    computePermutation argsort hash str round origin target =
      .ok (List.range target.length) := by
  obtain ⟨p, h1, h2, -⟩ := C133_permutation argsort ha hash str round origin target
    (hp ▸ List.Perm.refl _)
  rw [h1]
  congr 1
  unfold computePermutation at h1
  rw [hp] at h1
  have hlt : (target.map fun x => hash (key str (round x))).length = target.length := by simp
  generalize (target.map fun x => hash (key str (round x))) = ht at *
  have hf := fancy_iff.1 h1
  apply List.ext_getElem?
  intro k
  by_cases hk : k < target.length
  · rw [List.getElem?_range hk]
    obtain ⟨m, hm1, hm2⟩ := argsort_twice (ha ht) (ha _) k (by omega)
    rw [forall₂_get hf m k hm1, hm2]
  · have hl := h2.length_eq
    simp only [List.length_range] at hl
    rw [List.getElem?_eq_none (by omega), List.getElem?_eq_none (by simp; omega)]

/-- C133: more targets than origins raise IndexError, whatever the points are. -/
theorem C133_longer (argsort : List Int → List Nat) (ha : ∀ l, IsArgsort l (argsort l))
    (hash : List Char → Int) (str : K → List Char) (round : Pt K → Pt K)
    (origin target : List (Pt K)) (hl : origin.length < target.length) :
    computePermutation argsort hash str round origin target = .error .indexError := by
  unfold computePermutation
  have hA := (perm_lt (ha (origin.map fun x => hash (key str (round x))))).2
  have hB := (perm_lt (ha (target.map fun x => hash (key str (round x))))).2
  simp only [List.length_map] at hA hB
  have hC := ha ((argsort (target.map fun x => hash (key str (round x)))).map Int.ofNat)
  exact fancy_outside (i := origin.length) (by rw [hC.1.mem_iff]; simp; omega) (by omega)

/-- C133: the strings of two points agree only when the strings of the first two coordinates do:
the first coordinate is written at both ends and has one point or one exponent. -/
theorem C133_keys (a b c d : List Char) (ha : Numeral a) (hc : Numeral c)
    (h : a ++ b ++ a = c ++ d ++ c) : a = c ∧ b = d := by
  have key : ∀ (a b c d : List Char), Numeral a → Numeral c → a ++ b ++ a = c ++ d ++ c →
      a.length ≤ c.length → c.length = a.length := by
    intro a b c d ha hc h hle
    have hpre : a <+: c := List.prefix_of_prefix_length_le
      (l₃ := a ++ b ++ a) ⟨b ++ a, by simp⟩ (by rw [h]; exact ⟨d ++ c, by simp⟩) hle
    have hsuf : a <:+ c := List.suffix_of_suffix_length_le
      (l₃ := a ++ b ++ a) ⟨a ++ b, by simp⟩ (by rw [h]; exact ⟨c ++ d, by simp⟩) hle
    obtain ⟨x, hx⟩ := hpre
    obtain ⟨y, hy⟩ := hsuf
    have one : ∀ ch : Char, ch ∈ a → c.count ch ≤ 1 → c.length = a.length := by
      intro ch hm h1
      have hpos : 0 < a.count ch := List.count_pos_iff.2 hm
      have hny : ch ∉ y := by
        intro hin
        have := List.count_pos_iff.2 hin
        rw [← hy, List.count_append] at h1
        omega
      have e1 : c.idxOf ch = a.idxOf ch := by rw [← hx, List.idxOf_append_of_mem hm]
      have e2 : c.idxOf ch = a.idxOf ch + y.length := by
        rw [← hy, List.idxOf_append_of_notMem hny]; omega
      rw [← hy, List.length_append]; omega
    rcases ha.2.2 with hm | hm
    · exact one '.' hm hc.1
    · exact one 'e' hm hc.2.1
  have hl : a.length = c.length := by
    rcases Nat.le_total a.length c.length with hle | hle
    · exact (key a b c d ha hc h hle).symm
    · exact key c d a b hc ha h.symm hle
  rw [List.append_assoc, List.append_assoc] at h
  obtain ⟨h1, h2⟩ := List.append_inj h hl
  subst h1
  exact ⟨rfl, List.append_cancel_right h2⟩

/-- Without the repetition two points could have the same string. -/
example : "0.1".toList ++ "10.2".toList = "0.11".toList ++ "0.2".toList ∧
    Numeral "0.1".toList ∧ Numeral "0.11".toList ∧ Numeral "1e-05".toList ∧
    "0.1".toList ≠ "0.11".toList := by
  refine ⟨by decide, ⟨by decide, by decide, .inl (by decide)⟩,
    ⟨by decide, by decide, .inl (by decide)⟩, ⟨by decide, by decide, .inr (by decide)⟩, by decide⟩

/-- C133: when the rounded points of both meshes are the same up to their order and no two keys
have the same hash, the points are matched: their first two rounded coordinates agree. -/
theorem C133_match (argsort : List Int → List Nat) (ha : ∀ l, IsArgsort l (argsort l))
    (hash : List Char → Int) (str : K → List Char) (round : Pt K → Pt K)
    (origin target : List (Pt K)) (hstr : ∀ x y, str x = str y → x = y)
    (hnum : ∀ x, Numeral (str x))
    (hhash : ∀ x ∈ origin, ∀ y ∈ target,
      hash (key str (round x)) = hash (key str (round y)) → key str (round x) = key str (round y))
    (hp : (origin.map round).Perm (target.map round)) :
    ∃ p, computePermutation argsort hash str round origin target = .ok p ∧
      p.Perm (List.range target.length) ∧
      ∀ (i j : Nat) x y, p[i]? = some j → origin[j]? = some x → target[i]? = some y →
        round x 0 = round y 0 ∧ round x 1 = round y 1 := by
  have hp' : (origin.map fun x => hash (key str (round x))).Perm
      (target.map fun x => hash (key str (round x))) := by
    have := hp.map fun x => hash (key str x)
    simpa [List.map_map, Function.comp_def] using this
  obtain ⟨p, h1, h2, h3⟩ := C133_permutation argsort ha hash str round origin target hp'
  refine ⟨p, h1, h2, fun i j x y hij hx hy => ?_⟩
  have h := h3 i j hij
  simp only [List.getElem?_map, hx, hy, Option.map_some, Option.some.injEq] at h
  have hk := hhash x (List.mem_of_getElem? hx) y (List.mem_of_getElem? hy) h
  obtain ⟨e1, e2⟩ := C133_keys _ _ _ _ (hnum _) (hnum _) hk
  exact ⟨hstr _ _ e1, hstr _ _ e2⟩

/-- C133: points of space that differ in the third coordinate alone have the same key; two of them
in the other order are not matched. -/
theorem C133_space_violated (argsort : List Int → List Nat) (ha : ∀ l, IsArgsort l (argsort l))
    (hash : List Char → Int) (str : Int → List Char) :
    ∃ origin target : List (Pt Int), origin.Perm target ∧ origin.Nodup ∧
      computePermutation argsort hash str id origin target = .ok [0, 1] ∧
      origin[0]? ≠ target[0]? := by
  refine ⟨[![0, 0, 0], ![0, 0, 1]], [![0, 0, 1], ![0, 0, 0]], List.Perm.swap _ _ _, by decide, ?_,
    by decide⟩
  exact C133_same argsort ha hash str id _ _ rfl

/-- A sorting function as the theorems ask for -/
theorem exampleArgsort : ∃ argsort : List Int → List Nat, ∀ l, IsArgsort l (argsort l) := by
  refine ⟨fun l => (List.range l.length).insertionSort fun i j => l.getD i 0 ≤ l.getD j 0,
    fun l => ⟨List.perm_insertionSort _ _, ?_⟩⟩
  have : Std.Total (fun i j => l.getD i 0 ≤ l.getD j 0) := ⟨fun i j => le_total _ _⟩
  have : IsTrans Nat (fun i j => l.getD i 0 ≤ l.getD j 0) := ⟨fun i j k h1 h2 => le_trans h1 h2⟩
  have hs := List.pairwise_insertionSort (fun i j => l.getD i 0 ≤ l.getD j 0)
    (List.range l.length)
  refine List.Pairwise.filterMap _ ?_ hs
  intro i j h x hx y hy
  simpa [List.getD, hx, hy] using h

theorem mapRes_scale [Mul K] {rows : List (List K)} {signs : List K}
    (h : ∀ r ∈ rows, r.length = 2) :
    mapRes (fun p : List K × K => scaleRow p.1 p.2) (rows.zip signs) =
      .ok ((rows.zip signs).map fun p => p.1.map (· * p.2)) := by
  apply mapRes_map
  rintro ⟨r, s⟩ hm
  match r, h r (List.of_mem_zip hm).1 with
  | [a, b], _ => rfl

/-- C133: the stresses: with two degrees of freedom on each face, those of the face `i` are the
ones of the face `perm i` of the other mesh times the sign of index `perm i`. -/
theorem C133_transfer_s [Mul K] (v signs : List K) (perm : List Nat) (hn : 0 < signs.length)
    (hv : v.length = signs.length * 2) (hp : perm.Perm (List.range signs.length)) :
    ∃ out, transferS v signs perm = .ok out ∧ out.length = v.length ∧
      ∀ (i j : Nat) s, perm[i]? = some j → signs[j]? = some s → ∀ c < 2, ∀ a, v[2 * j + c]? = some a →
        out[2 * i + c]? = some (a * s) := by
  set rows := (List.range signs.length).map fun i => (v.drop (i * 2)).take 2 with hrows
  have hr2 : ∀ r ∈ rows, r.length = 2 := by
    intro r hr
    simp only [hrows, List.mem_map, List.mem_range] at hr
    obtain ⟨i, hi, rfl⟩ := hr
    simp; omega
  set scaled := (rows.zip signs).map fun p => p.1.map (· * p.2) with hsc
  have hsl : scaled.length = signs.length := by simp [hsc, hrows]
  have hs2 : ∀ r ∈ scaled, r.length = 2 := by
    intro r hr
    simp only [hsc, List.mem_map] at hr
    obtain ⟨⟨r', s⟩, hm, rfl⟩ := hr
    simpa using hr2 r' (List.of_mem_zip hm).1
  obtain ⟨picked, hf⟩ := fancy_total (a := scaled) (idx := perm) (by
    intro i hi
    have := hp.mem_iff.1 hi
    simpa [hsl] using this)
  have hpk : ∀ r ∈ picked, r.length = 2 := by
    clear hp
    induction hf with
    | nil => simp
    | cons h _ ih =>
      intro r hr
      rcases List.mem_cons.1 hr with rfl | hr
      · exact hs2 _ (List.mem_of_getElem? h)
      · exact ih r hr
  have hpl : picked.length = signs.length := by
    rw [← hf.length_eq, hp.length_eq]; simp
  obtain ⟨f1, f2⟩ := flatten_get hpk
  have hlen : picked.flatten.length = v.length := by rw [f1, hpl, hv]
  have hrun : transferS v signs perm = .ok picked.flatten := by
    unfold transferS
    rw [splitRows_ok v signs.length 2 hn hv]
    simp only [Res.bind_ok]
    rw [← hrows, mapRes_scale hr2]
    simp only [Res.bind_ok]
    rw [← hsc, fancy_iff.2 hf]
    simp only [Res.bind_ok]
    rw [if_pos hlen]
    rfl
  refine ⟨_, hrun, hlen, ?_⟩
  intro i j s hij hjs c hc a ha
  have h1 := forall₂_get hf j i hij
  have hj : j < signs.length := (List.getElem?_eq_some_iff.1 hjs).1
  have h2 : scaled[j]? = some (((v.drop (j * 2)).take 2).map (· * s)) := by
    have hrj : rows[j]? = some ((v.drop (j * 2)).take 2) := by
      simp [hrows, hj]
    have hz : (rows.zip signs)[j]? = some ((v.drop (j * 2)).take 2, s) :=
      List.getElem?_zip_eq_some.2 ⟨hrj, hjs⟩
    simp only [hsc, List.getElem?_map, hz, Option.map_some]
  rw [h2] at h1
  rw [f2 i _ h1 c hc, List.getElem?_map, List.getElem?_take_of_lt hc, List.getElem?_drop]
  have : j * 2 + c = 2 * j + c := by omega
  rw [this, ha]
  rfl

example : transferS [1, 2, 3, 4, 5, 6] [1, -1, 1] [2, 0, 1] = .ok [5, 6, 1, 2, -3, -4] := rfl

/-- C133: the rows are those wanted just when, for every face, the sign of its number agrees with
the sign of the number of its partner, or the value is zero. -/
theorem C133_sign (v signs : List ℝ) (perm : List Nat) (hn : 0 < signs.length)
    (hv : v.length = signs.length * 2) (hp : perm.Perm (List.range signs.length)) :
    ∃ out, transferS v signs perm = .ok out ∧ (SignedRows v out signs perm ↔
      ∀ (i j : Nat) s t, perm[i]? = some j → signs[i]? = some s → signs[j]? = some t →
        s = t ∨ (v[2 * j]? = some 0 ∧ v[2 * j + 1]? = some 0)) := by
  obtain ⟨out, h1, -, h3⟩ := C133_transfer_s v signs perm hn hv hp
  refine ⟨out, h1, ⟨fun h i j s t hij hs ht => ?_, fun h i j s hij hs c hc a ha => ?_⟩⟩
  · have hj : j < signs.length := (List.getElem?_eq_some_iff.1 ht).1
    by_cases hst : s = t
    · exact .inl hst
    · right
      have zero : ∀ c < 2, v[2 * j + c]? = some 0 := by
        intro c hc
        have hlt : 2 * j + c < v.length := by omega
        have ha := List.getElem?_eq_getElem hlt
        have e1 := h i j s hij hs c hc _ ha
        have e2 := h3 i j t hij ht c hc _ ha
        rw [e1] at e2
        have e3 := Option.some.inj e2
        rw [ha]
        rcases mul_eq_mul_left_iff.1 e3 with h | h
        · exact absurd h hst
        · rw [h]
      exact ⟨zero 0 (by omega), zero 1 (by omega)⟩
  · have hj : j < signs.length := by
      have : j ∈ List.range signs.length := hp.mem_iff.1 (List.mem_of_getElem? hij)
      simpa using this
    have ht := List.getElem?_eq_getElem hj
    have e := h3 i j _ hij ht c hc a ha
    rcases h i j s _ hij hs ht with hst | ⟨h0, h0'⟩
    · rw [hst]; exact e
    · have : a = 0 := by
        interval_cases c
        · simpa [h0] using ha.symm
        · simpa [h0'] using ha.symm
      rw [e, this]; simp

/-- C133: two faces in the other order, one of them turned: both get the wrong sign. -/
theorem C133_sign_violated : ∃ (v signs : List Int) (perm : List Nat) (out : List Int),
    perm.Perm (List.range signs.length) ∧ v.length = signs.length * 2 ∧
    transferS v signs perm = .ok out ∧ ¬ SignedRows v out signs perm := by
  refine ⟨[1, 2, 3, 4], [1, -1], [1, 0], [-3, -4, 1, 2], List.Perm.swap _ _ _, rfl, rfl, ?_⟩
  intro h
  have := h 0 1 1 rfl rfl 0 (by omega) 3 rfl
  simp at this

/-- C133: any other number of degrees of freedom on a face raises ValueError. -/
theorem C133_rows [Mul K] (v signs : List K) (perm : List Nat) (w : Nat) (hn : 0 < signs.length)
    (hv : v.length = signs.length * w) (hw : w ≠ 2) (hp : perm.Perm (List.range signs.length)) :
    transferS v signs perm = .error .valueError := by
  unfold transferS
  rw [splitRows_ok v signs.length w hn hv]
  simp only [Res.bind_ok]
  set rows := (List.range signs.length).map fun i => (v.drop (i * w)).take w with hrows
  have hrw : ∀ r ∈ rows, r.length = w := by
    intro r hr
    simp only [hrows, List.mem_map, List.mem_range] at hr
    obtain ⟨i, hi, rfl⟩ := hr
    have : (i + 1) * w ≤ signs.length * w := Nat.mul_le_mul_right w hi
    rw [Nat.add_mul] at this
    simp; omega
  have hrl : rows.length = signs.length := by simp [hrows]
  by_cases h1 : w = 1
  · have hone : mapRes (fun p : List K × K => scaleRow p.1 p.2) (rows.zip signs) =
        .ok ((rows.zip signs).map fun p => p.1.map (· * p.2) ++ p.1.map (· * p.2)) := by
      apply mapRes_map
      rintro ⟨r, s⟩ hm
      have hr := hrw r (List.of_mem_zip hm).1
      rw [h1] at hr
      match r, hr with
      | [a], _ => rfl
    rw [hone]
    simp only [Res.bind_ok]
    set scaled := (rows.zip signs).map fun p => p.1.map (· * p.2) ++ p.1.map (· * p.2) with hsc
    have hsl : scaled.length = signs.length := by simp [hsc, hrl]
    have hs2 : ∀ r ∈ scaled, r.length = 2 := by
      intro r hr
      simp only [hsc, List.mem_map] at hr
      obtain ⟨⟨r', s⟩, hm, rfl⟩ := hr
      have := hrw r' (List.of_mem_zip hm).1
      simp [this, h1]
    obtain ⟨picked, hf⟩ := fancy_total (a := scaled) (idx := perm) (by
      intro i hi
      have := hp.mem_iff.1 hi
      simpa [hsl] using this)
    have hpl : picked.length = signs.length := by
      rw [← hf.length_eq, hp.length_eq]; simp
    have hpk : ∀ r ∈ picked, r.length = 2 := by
      clear hp hpl
      induction hf with
      | nil => simp
      | cons h _ ih =>
        intro r hr
        rcases List.mem_cons.1 hr with rfl | hr
        · exact hs2 _ (List.mem_of_getElem? h)
        · exact ih r hr
    obtain ⟨f1, -⟩ := flatten_get hpk
    have hne : picked.flatten.length ≠ v.length := by rw [f1, hpl, hv, h1]; omega
    rw [fancy_iff.2 hf]
    simp only [Res.bind_ok]
    rw [if_neg hne]
    rfl
  · have : mapRes (fun p : List K × K => scaleRow p.1 p.2) (rows.zip signs) =
        .error .valueError := by
      obtain ⟨r, t, hr'⟩ := List.exists_cons_of_length_pos (l := rows) (by omega)
      obtain ⟨s, st, hs'⟩ := List.exists_cons_of_length_pos (l := signs) (by omega)
      have hr : r.length = w := hrw r (by rw [hr']; simp)
      have hsr : scaleRow r s = .error .valueError := by
        match r, hr with
        | [], _ => rfl
        | [a], hr => exact absurd hr.symm h1
        | [a, b], hr => exact absurd hr.symm hw
        | a :: b :: c :: r, _ => rfl
      rw [hr', hs', List.zip_cons_cons]
      simp only [mapRes, hsr]
      rfl
    rw [this]
    rfl

/-- Four degrees of freedom on a face -/
example : transferS [1, 2, 3, 4, 5, 6, 7, 8] [1, (-1 : Int)] [0, 1] = .error .valueError := rfl

/-- C133: the displacements: those of the cell `i` are the ones of the cell `perm i`. -/
theorem C133_transfer_u (v : List K) (n w : Nat) (perm : List Nat) (hn : 0 < n)
    (hv : v.length = n * w) (hp : perm.Perm (List.range n)) :
    ∃ out, transferU v n perm = .ok out ∧ out.length = v.length ∧
      ∀ i j : Nat, perm[i]? = some j → ∀ c < w, out[w * i + c]? = v[w * j + c]? := by
  set rows := (List.range n).map fun i => (v.drop (i * w)).take w with hrows
  have hrw : ∀ r ∈ rows, r.length = w := by
    intro r hr
    simp only [hrows, List.mem_map, List.mem_range] at hr
    obtain ⟨i, hi, rfl⟩ := hr
    have : (i + 1) * w ≤ n * w := Nat.mul_le_mul_right w hi
    rw [Nat.add_mul] at this
    simp; omega
  have hrl : rows.length = n := by simp [hrows]
  obtain ⟨picked, hf⟩ := fancy_total (a := rows) (idx := perm) (by
    intro i hi
    have := hp.mem_iff.1 hi
    simpa [hrl] using this)
  have hpk : ∀ r ∈ picked, r.length = w := by
    clear hp
    induction hf with
    | nil => simp
    | cons h _ ih =>
      intro r hr
      rcases List.mem_cons.1 hr with rfl | hr
      · exact hrw _ (List.mem_of_getElem? h)
      · exact ih r hr
  have hpl : picked.length = n := by
    rw [← hf.length_eq, hp.length_eq]; simp
  obtain ⟨f1, f2⟩ := flatten_get hpk
  have hlen : picked.flatten.length = v.length := by rw [f1, hpl, hv]
  have hrun : transferU v n perm = .ok picked.flatten := by
    unfold transferU
    rw [splitRows_ok v n w hn hv]
    simp only [Res.bind_ok]
    rw [← hrows, fancy_iff.2 hf]
    simp only [Res.bind_ok]
    rw [if_pos hlen]
    rfl
  refine ⟨_, hrun, hlen, fun i j hij c hc => ?_⟩
  have h1 := forall₂_get hf j i hij
  have hj : j < n := by
    have : j ∈ List.range n := hp.mem_iff.1 (List.mem_of_getElem? hij)
    simpa using this
  have h2 : rows[j]? = some ((v.drop (j * w)).take w) := by simp [hrows, hj]
  rw [h2] at h1
  rw [f2 i _ h1 c hc, List.getElem?_take_of_lt hc, List.getElem?_drop, Nat.mul_comm]

example : transferU [1, 2, 3, 4, 5, 6] 3 [2, 0, 1] = .ok [5, 6, 1, 2, 3, 4] := rfl

/-- C133: the fields that the finite volume method does not have are filled with zeros and each
field keeps its place. -/
theorem C133_fields [Mul K] [Zero K] (ns nm nu nt nCells : Nat) (alpha signs s u : List K)
    (facePerm cellPerm : List Nat) (hl : alpha.length = ns + nu)
    (hs : transferS (alpha.take ns) signs facePerm = .ok s)
    (hu : transferU (alpha.drop ns) nCells cellPerm = .ok u) :
    transfer3 ns nu nt alpha signs facePerm nCells cellPerm =
      .ok (s ++ u ++ List.replicate nt 0) ∧
    transfer4 ns nm nu nt alpha signs facePerm nCells cellPerm =
      .ok (s ++ List.replicate nm 0 ++ u ++ List.replicate nt 0) := by
  have hd : (alpha.drop ns).length = nu := by simp [hl]
  have ht : (alpha.take ns).length = ns := by simp [hl]
  constructor
  · have e1 : (alpha ++ List.replicate nt (0 : K)).take ns = alpha.take ns := by
      rw [List.take_append_of_le_length (by omega)]
    have e2 : ((alpha ++ List.replicate nt (0 : K)).drop ns).take nu = alpha.drop ns := by
      rw [List.drop_append_of_le_length (by omega), List.take_append_of_le_length (by omega),
        List.take_of_length_le (by omega)]
    have e3 : (alpha ++ List.replicate nt (0 : K)).drop (ns + nu) = List.replicate nt 0 := by
      rw [← hl, List.drop_left]
    simp only [transfer3, e1, e2, e3, hs, hu, Res.bind_ok]
    rfl
  · have e0 : (alpha.drop ns).take nu = alpha.drop ns := List.take_of_length_le (by omega)
    have hz : (List.replicate nm (0 : K)).length = nm := by simp
    generalize hA : alpha.take ns = A at *
    generalize hB : alpha.drop ns = B at *
    generalize hZ : List.replicate nm (0 : K) = Z at *
    have e1 : (A ++ Z ++ B ++ List.replicate nt (0 : K)).take ns = A := by
      rw [← ht]; simp [List.append_assoc]
    have e2 : ((A ++ Z ++ B ++ List.replicate nt (0 : K)).drop (ns + nm)).take nu = B := by
      have : ns + nm = (A ++ Z).length := by simp [ht, hz]
      rw [this, List.append_assoc (A ++ Z), List.drop_left, ← hd, List.take_left]
    have e3 : ((A ++ Z ++ B ++ List.replicate nt (0 : K)).drop ns).take nm = Z := by
      rw [← ht, List.append_assoc, List.append_assoc, List.drop_left, ← hz, List.take_left]
    have e4 : (A ++ Z ++ B ++ List.replicate nt (0 : K)).drop (ns + nm + nu) =
        List.replicate nt 0 := by
      have : ns + nm + nu = (A ++ Z ++ B).length := by
        rw [List.length_append, List.length_append, ht, hz, hd]
      rw [this, List.drop_left]
    simp only [transfer4, hA, hB, hZ, e0, e1, e2, e3, e4, hs, hu, Res.bind_ok]
    rfl

example : transfer4 4 3 2 1 [1, 2, 3, 4, 5, 6] [1, -1] [1, 0] 1 [0] =
    .ok [-3, -4, 1, 2, 0, 0, 0, 5, 6, (0 : Int)] := rfl

/-- C133: the normal of a segment in the plane is there unless its ends agree, has length one and
is orthogonal to the segment. -/
theorem C133_normal (p q : Pt ℝ) :
    (computeNormal p q = none ↔ p = q) ∧
    ∀ n, computeNormal p q = some n →
      n.1 * (q 0 - p 0) + n.2 * (q 1 - p 1) = 0 ∧
      (p 2 = q 2 → n.1 ^ 2 + n.2 ^ 2 = 1) ∧ (q 0 - p 0) * n.2 - (q 1 - p 1) * n.1 ≥ 0 := by
  have hsq := sq_dist p q
  constructor
  · unfold computeNormal
    by_cases h : dist p q = 0
    · rw [if_pos h]
      rw [h] at hsq
      refine ⟨fun _ => ?_, fun _ => rfl⟩
      have h0 : q 0 - p 0 = 0 := by nlinarith [sq_nonneg (q 1 - p 1), sq_nonneg (q 2 - p 2)]
      have h1 : q 1 - p 1 = 0 := by nlinarith [sq_nonneg (q 0 - p 0), sq_nonneg (q 2 - p 2)]
      have h2 : q 2 - p 2 = 0 := by nlinarith [sq_nonneg (q 1 - p 1), sq_nonneg (q 0 - p 0)]
      funext i
      match i with
      | 0 => linarith
      | 1 => linarith
      | 2 => linarith
    · rw [if_neg h]
      refine ⟨fun h' => (Option.some_ne_none _ h').elim, fun h' => absurd ?_ h⟩
      subst h'
      simp [dist]
  · intro n hn
    unfold computeNormal at hn
    by_cases h : dist p q = 0
    · rw [if_pos h] at hn; exact absurd hn (by simp)
    · rw [if_neg h] at hn
      obtain rfl := Option.some.inj hn
      have hd : 0 < dist p q := lt_of_le_of_ne (dist_nonneg p q) (Ne.symm h)
      refine ⟨by field_simp; ring, fun h2 => ?_, ?_⟩
      · rw [h2, sub_self] at hsq
        field_simp
        nlinarith
      · have : (q 0 - p 0) * ((q 0 - p 0) / dist p q) - (q 1 - p 1) * -((q 1 - p 1) / dist p q) =
            ((q 0 - p 0) ^ 2 + (q 1 - p 1) ^ 2) / dist p q := by field_simp; ring
        rw [ge_iff_le]
        show 0 ≤ (q 0 - p 0) * ((q 0 - p 0) / dist p q) -
          (q 1 - p 1) * -((q 1 - p 1) / dist p q)
        rw [this]
        positivity

example : computeNormal (![0, 0, 0] : Pt ℝ) ![2, 0, 0] = some (0, 1) := by
  have : dist (![0, 0, 0] : Pt ℝ) ![2, 0, 0] = 2 := by
    have : dist (![0, 0, 0] : Pt ℝ) ![2, 0, 0] ^ 2 = 2 ^ 2 := by rw [sq_dist]; norm_num [vec_two]
    exact (pow_left_inj₀ (dist_nonneg _ _) (by norm_num) (by norm_num)).1 this
  unfold computeNormal
  rw [this, if_neg (by norm_num)]
  norm_num

/-- C133: a triangle is reported when the law of cosines gives, at one of its corners, a product
that is negative by more than the tolerance. -/
theorem C133_obtuse (p q r : Pt ℝ) :
    Obtuse p q r ↔
      (1 / 10 ^ 8 + 1 / 10 ^ 5 * dist q r ^ 2 < -2 * cornerDot p q r ∨
       1 / 10 ^ 8 + 1 / 10 ^ 5 * dist r p ^ 2 < -2 * cornerDot q r p ∨
       1 / 10 ^ 8 + 1 / 10 ^ 5 * dist p q ^ 2 < -2 * cornerDot r p q) := by
  have c1 : -2 * cornerDot p q r = dist q r ^ 2 - dist p q ^ 2 - dist r p ^ 2 := by
    simp only [sq_dist, cornerDot]; ring
  have c2 : -2 * cornerDot q r p = dist r p ^ 2 - dist p q ^ 2 - dist q r ^ 2 := by
    simp only [sq_dist, cornerDot]; ring
  have c3 : -2 * cornerDot r p q = dist p q ^ 2 - dist q r ^ 2 - dist r p ^ 2 := by
    simp only [sq_dist, cornerDot]; ring
  rw [c1, c2, c3]
  have n1 := dist_nonneg p q
  have n2 := dist_nonneg q r
  have n3 := dist_nonneg r p
  unfold Obtuse sides
  generalize dist p q = d1 at *
  generalize dist q r = d2 at *
  generalize dist r p = d3 at *
  obtain ⟨x, y, z, hs, hxy, hyz, hperm⟩ := sort_three d1 d2 d3
  rw [hs]
  show x ^ 2 + y ^ 2 < z ^ 2 ∧ ¬ |x ^ 2 + y ^ 2 - z ^ 2| ≤ 1 / 10 ^ 8 + 1 / 10 ^ 5 * |z ^ 2| ↔ _
  have hsum : x ^ 2 + (y ^ 2 + z ^ 2) = d1 ^ 2 + (d2 ^ 2 + d3 ^ 2) := by
    have := (hperm.map (· ^ 2)).sum_eq
    simpa using this
  have hz : z = d1 ∨ z = d2 ∨ z = d3 := by
    have : z ∈ [d1, d2, d3] := hperm.mem_iff.1 (by simp)
    simpa using this
  have hmax : ∀ d ∈ [d1, d2, d3], d ≤ z := by
    intro d hd
    have : d ∈ [x, y, z] := hperm.mem_iff.2 hd
    simp only [List.mem_cons, List.not_mem_nil, or_false] at this
    rcases this with rfl | rfl | rfl
    · linarith
    · exact hyz
    · exact le_refl _
  have m1 := hmax d1 (by simp)
  have m2 := hmax d2 (by simp)
  have m3 := hmax d3 (by simp)
  have s1 : d1 ^ 2 ≤ z ^ 2 := pow_le_pow_left₀ n1 m1 2
  have s2 : d2 ^ 2 ≤ z ^ 2 := pow_le_pow_left₀ n2 m2 2
  have s3 : d3 ^ 2 ≤ z ^ 2 := pow_le_pow_left₀ n3 m3 2
  have hzz : |z ^ 2| = z ^ 2 := abs_of_nonneg (sq_nonneg z)
  rw [hzz]
  have main : (x ^ 2 + y ^ 2 < z ^ 2 ∧
      ¬ |x ^ 2 + y ^ 2 - z ^ 2| ≤ 1 / 10 ^ 8 + 1 / 10 ^ 5 * z ^ 2) ↔
      1 / 10 ^ 8 + 1 / 10 ^ 5 * z ^ 2 < z ^ 2 - (x ^ 2 + y ^ 2) := by
    constructor
    · rintro ⟨h1, h2⟩
      rw [abs_of_neg (by linarith)] at h2
      linarith
    · intro h
      have hp : 0 ≤ 1 / 10 ^ 5 * z ^ 2 := by positivity
      have h1 : x ^ 2 + y ^ 2 < z ^ 2 := by
        have : (0 : ℝ) < 1 / 10 ^ 8 := by norm_num
        linarith
      refine ⟨h1, ?_⟩
      rw [abs_of_neg (by linarith)]
      linarith
  rw [main]
  constructor
  · intro h
    rcases hz with rfl | rfl | rfl
    · right; right; linarith
    · left; linarith
    · right; left; linarith
  · rintro (h | h | h)
    · linarith
    · linarith
    · linarith

/-- C133: a triangle that is reported has an obtuse angle. -/
theorem C133_obtuse_sound (p q r : Pt ℝ) (h : Obtuse p q r) : HasObtuseAngle p q r := by
  have b1 : 0 ≤ 1 / 10 ^ 5 * dist q r ^ 2 := by positivity
  have b2 : 0 ≤ 1 / 10 ^ 5 * dist r p ^ 2 := by positivity
  have b3 : 0 ≤ 1 / 10 ^ 5 * dist p q ^ 2 := by positivity
  have b4 : (0 : ℝ) < 1 / 10 ^ 8 := by norm_num
  rcases (C133_obtuse p q r).1 h with h | h | h
  · exact .inl (by linarith)
  · exact .inr (.inl (by linarith))
  · exact .inr (.inr (by linarith))

example : Obtuse (![0, 0, 0] : Pt ℝ) ![2, 0, 0] ![-1, 1, 0] := by
  rw [C133_obtuse]
  left
  rw [sq_dist]
  norm_num [cornerDot, vec_two]

/-- C133: no triangle with sides up to one part in ten thousand is reported; some of them have
obtuse angles. -/
theorem C133_obtuse_small_violated :
    (∀ p q r : Pt ℝ, dist p q ≤ 1 / 10 ^ 4 → dist q r ≤ 1 / 10 ^ 4 → dist r p ≤ 1 / 10 ^ 4 →
      ¬ Obtuse p q r) ∧
    ∃ p q r : Pt ℝ, HasObtuseAngle p q r ∧ ¬ Obtuse p q r := by
  constructor
  · intro p q r h1 h2 h3 h
    have c1 : -2 * cornerDot p q r = dist q r ^ 2 - dist p q ^ 2 - dist r p ^ 2 := by
      simp only [sq_dist, cornerDot]; ring
    have c2 : -2 * cornerDot q r p = dist r p ^ 2 - dist p q ^ 2 - dist q r ^ 2 := by
      simp only [sq_dist, cornerDot]; ring
    have c3 : -2 * cornerDot r p q = dist p q ^ 2 - dist q r ^ 2 - dist r p ^ 2 := by
      simp only [sq_dist, cornerDot]; ring
    have s1 := pow_le_pow_left₀ (dist_nonneg p q) h1 2
    have s2 := pow_le_pow_left₀ (dist_nonneg q r) h2 2
    have s3 := pow_le_pow_left₀ (dist_nonneg r p) h3 2
    have e : ((1 : ℝ) / 10 ^ 4) ^ 2 = 1 / 10 ^ 8 := by norm_num
    rw [e] at s1 s2 s3
    have p1 := sq_nonneg (dist p q)
    have p2 := sq_nonneg (dist q r)
    have p3 := sq_nonneg (dist r p)
    rcases (C133_obtuse p q r).1 h with h | h | h
    · linarith
    · linarith
    · linarith
  · refine ⟨![0, 0, 0], ![1 / 10 ^ 5, 0, 0], ![-(1 / 10 ^ 5), 1 / 10 ^ 5, 0], .inl ?_, ?_⟩
    · norm_num [cornerDot, vec_two]
    · rw [C133_obtuse, sq_dist, sq_dist, sq_dist]
      norm_num [cornerDot, vec_two]

/-- C133: a permutation of another length is refused when there is something to distribute. -/
theorem C133_transfer_u_refused (v : List K) (n w : Nat) (perm : List Nat) (hn : 0 < n) (hw : 0 < w)
    (hv : v.length = n * w) (hp : ∀ i ∈ perm, i < n) (hl : perm.length ≠ n) :
    transferU v n perm = .error .valueError := by
  set rows := (List.range n).map fun i => (v.drop (i * w)).take w with hrows
  have hrw : ∀ r ∈ rows, r.length = w := by
    intro r hr
    simp only [hrows, List.mem_map, List.mem_range] at hr
    obtain ⟨i, hi, rfl⟩ := hr
    have : (i + 1) * w ≤ n * w := Nat.mul_le_mul_right w hi
    rw [Nat.add_mul] at this
    simp; omega
  have hrl : rows.length = n := by simp [hrows]
  obtain ⟨picked, hf⟩ := fancy_total (a := rows) (idx := perm) (by
    intro i hi
    rw [hrl]
    exact hp i hi)
  have hpl : picked.length = perm.length := hf.length_eq.symm
  have hpk : ∀ r ∈ picked, r.length = w := by
    clear hp hl hpl
    induction hf with
    | nil => simp
    | cons h _ ih =>
      intro r hr
      rcases List.mem_cons.1 hr with rfl | hr
      · exact hrw _ (List.mem_of_getElem? h)
      · exact ih r hr
  obtain ⟨f1, -⟩ := flatten_get hpk
  have hlen : picked.flatten.length ≠ v.length := by
    rw [f1, hpl, hv]
    exact fun h => hl (Nat.eq_of_mul_eq_mul_right hw h)
  unfold transferU
  rw [splitRows_ok v n w hn hv]
  simp only [Res.bind_ok]
  rw [← hrows, fancy_iff.2 hf]
  simp only [Res.bind_ok]
  rw [if_neg hlen]
  rfl

example : transferU [1, 2, 3, 4] 2 [1] = .error .valueError := rfl

#print axioms C133_permutation
#print axioms C133_same
#print axioms C133_longer
#print axioms C133_keys
#print axioms C133_match
#print axioms C133_space_violated
#print axioms C133_transfer_s
#print axioms C133_sign
#print axioms C133_sign_violated
#print axioms C133_rows
#print axioms C133_transfer_u
#print axioms C133_fields
#print axioms C133_normal
#print axioms C133_obtuse
#print axioms C133_obtuse_sound
#print axioms C133_obtuse_small_violated

#print axioms C133_transfer_u_refused

end Verif.FvTransfer
