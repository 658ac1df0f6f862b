/-
Property theorems C130: the quadrature rules of product spaces
(src/spaces/product_space.py, src/spaces/md_product_space.py).
-/
import Verif.Lemmas.Quadrature

namespace Verif.Quadrature
variable {ρ : Type} {mk : Nat → Int → Res ρ} {pt : ρ} {data : List (Nat × Int)} {k : Int}

theorem served_of {order : Int} (hm : Makes mk order) {d : Int} (h0 : 0 ≤ d) (h3 : d ≤ 3) :
    Served mk order d :=
  ⟨h0, h3, fun hne => hm _ (by omega) (by omega)⟩

theorem topOrder_ne {data : List (Nat × Int)} {k : Int} (hk : IsTopOrder data k) : data ≠ [] := by
  rintro rfl; obtain ⟨p, hp, -⟩ := hk.1; simp at hp

theorem empty_get (i : Nat) (hi : i < 4) : (empty ρ)[i]? = some none := by
  interval_cases i <;> rfl

theorem mem_ofNat {l : List Nat} {i : Nat} : (i : Int) ∈ l.map Int.ofNat ↔ i ∈ l := by
  simp

/-- C130: with fields of dimension one to three a product space has the order `2 k + 1` for the
greatest order `k` of its fields, a rule of this order for each dimension up to the greatest one,
and boundary rules for the dimensions one below those of the fields. -/
theorem C130_rules (hk : IsTopOrder data k) (hd : ∀ p ∈ data, 1 ≤ p.1 ∧ p.1 ≤ 3)
    (hm : Makes mk (2 * k + 1)) :
    ∃ R, productRules mk pt data = .ok R ∧ R.order = 2 * k + 1 ∧ R.quad.length = 4 ∧
      R.bcQuad.length = 4 ∧ ∀ i : Nat, i < 4 →
        ((∃ p ∈ data, i ≤ p.1) → ∃ r, RuleFor mk pt (2 * k + 1) i r ∧ R.quad[i]? = some (some r)) ∧
        ((¬ ∃ p ∈ data, i ≤ p.1) → R.quad[i]? = some none) ∧
        ((∃ p ∈ data, p.1 = i + 1) →
          ∃ r, RuleFor mk pt (2 * k + 1) i r ∧ R.bcQuad[i]? = some (some r)) ∧
        ((¬ ∃ p ∈ data, p.1 = i + 1) → R.bcQuad[i]? = some none) := by
  have hne := topOrder_ne hk
  obtain ⟨k', hk', htop⟩ := maxInt_spec hne
  obtain rfl := top_unique hk htop
  obtain ⟨m, hm1, ⟨p, hp, rfl⟩, hle⟩ := npMax_dims hne
  obtain ⟨q, hq, hql, hqs⟩ := fill_ok (mk := mk) (pt := pt) (order := 2 * k + 1)
    ((List.range (p.1 + 1)).map Int.ofNat) (empty ρ) rfl (by
      intro d hdm
      obtain ⟨n, hn, rfl⟩ := List.mem_map.1 hdm
      have := List.mem_range.1 hn
      have := hd p hp
      exact served_of hm (by simp) (by simp only [Int.ofNat_eq_natCast]; omega))
  obtain ⟨b, hb, hbl, hbs⟩ := fill_ok (mk := mk) (pt := pt) (order := 2 * k + 1)
    (data.map fun p => (p.1 : Int) - 1) (empty ρ) rfl (by
      intro d hdm
      obtain ⟨x, hx, rfl⟩ := List.mem_map.1 hdm
      have := hd x hx
      exact served_of hm (by omega) (by omega))
  refine ⟨⟨2 * k + 1, q, b⟩, ?_, rfl, hql, hbl, ?_⟩
  · simp only [productRules, hk', hm1, Res.bind_ok, hq, hb]
  · intro i hi
    have e1 : (i : Int) ∈ (List.range (p.1 + 1)).map Int.ofNat ↔ ∃ x ∈ data, i ≤ x.1 := by
      rw [mem_ofNat, List.mem_range]
      constructor
      · intro h; exact ⟨p, hp, by omega⟩
      · rintro ⟨x, hx, h⟩; have := hle x hx; omega
    have e2 : (i : Int) ∈ (data.map fun p => (p.1 : Int) - 1) ↔ ∃ x ∈ data, x.1 = i + 1 := by
      rw [List.mem_map]
      constructor
      · rintro ⟨x, hx, h⟩; exact ⟨x, hx, by omega⟩
      · rintro ⟨x, hx, h⟩; exact ⟨x, hx, by omega⟩
    refine ⟨fun h => (hqs i hi).1 (e1.2 h), fun h => ?_, fun h => (hbs i hi).1 (e2.2 h), fun h => ?_⟩
    · rw [(hqs i hi).2 (fun h' => h (e1.1 h')), empty_get i hi]
    · rw [(hbs i hi).2 (fun h' => h (e2.1 h')), empty_get i hi]

/-- A rule is named by its dimension and order here. -/
example : IsTopOrder [(2, 1), (1, 3), (2, 2)] 3 ∧
    (∀ p ∈ ([(2, 1), (1, 3), (2, 2)] : List (Nat × Int)), 1 ≤ p.1 ∧ p.1 ≤ 3) ∧
    Makes (ρ := Nat × Int) (fun d o => .ok (d, o)) (2 * 3 + 1) ∧
    (productRules (ρ := Nat × Int) (fun d o => .ok (d, o)) (0, 0) [(2, 1), (1, 3), (2, 2)]).toOption.map
        (fun R => (R.order, R.quad, R.bcQuad)) =
      some (7, [some (0, 0), some (1, 7), some (2, 7), none],
        [some (0, 0), some (1, 7), none, none]) :=
  ⟨⟨⟨(1, 3), by simp, rfl⟩, by decide⟩, by decide, fun d _ _ => ⟨_, rfl⟩, rfl⟩

/-- C130: the mixed-dimensional space makes the rules of the dimensions of its fields only; the
attributes set before do not matter. -/
theorem C130_md (s : MdRules ρ) (hk : IsTopOrder data k) (hd : ∀ p ∈ data, 1 ≤ p.1 ∧ p.1 ≤ 3)
    (hm : Makes mk (2 * k + 1)) :
    ∃ q b, mdRules mk pt s data = (⟨some (2 * k + 1), some q, some b⟩, none) ∧ q.length = 4 ∧
      b.length = 4 ∧ ∀ i : Nat, i < 4 →
        ((∃ p ∈ data, p.1 = i) → ∃ r, RuleFor mk pt (2 * k + 1) i r ∧ q[i]? = some (some r)) ∧
        ((¬ ∃ p ∈ data, p.1 = i) → q[i]? = some none) ∧
        ((∃ p ∈ data, p.1 = i + 1) →
          ∃ r, RuleFor mk pt (2 * k + 1) i r ∧ b[i]? = some (some r)) ∧
        ((¬ ∃ p ∈ data, p.1 = i + 1) → b[i]? = some none) := by
  have hne := topOrder_ne hk
  obtain ⟨k', hk', htop⟩ := maxInt_spec hne
  obtain rfl := top_unique hk htop
  have hu : ∀ n, n ∈ npUnique (data.map Prod.fst) ↔ ∃ p ∈ data, p.1 = n := by
    intro n; rw [mem_npUnique, List.mem_map]
  obtain ⟨q, hq, hql, hqs⟩ := fill_ok (mk := mk) (pt := pt) (order := 2 * k + 1)
    ((npUnique (data.map Prod.fst)).map Int.ofNat) (empty ρ) rfl (by
      intro d hdm
      obtain ⟨n, hn, rfl⟩ := List.mem_map.1 hdm
      obtain ⟨x, hx, rfl⟩ := (hu n).1 hn
      have := hd x hx
      exact served_of hm (by simp) (by simp only [Int.ofNat_eq_natCast]; omega))
  obtain ⟨b, hb, hbl, hbs⟩ := fill_ok (mk := mk) (pt := pt) (order := 2 * k + 1)
    ((npUnique (data.map Prod.fst)).map fun d : Nat => (d : Int) - 1) (empty ρ) rfl (by
      intro d hdm
      obtain ⟨n, hn, rfl⟩ := List.mem_map.1 hdm
      obtain ⟨x, hx, rfl⟩ := (hu n).1 hn
      have := hd x hx
      exact served_of hm (by omega) (by omega))
  refine ⟨q, b, ?_, hql, hbl, ?_⟩
  · simp only [mdRules, hk', hq, hb]
  · intro i hi
    have e1 : (i : Int) ∈ (npUnique (data.map Prod.fst)).map Int.ofNat ↔ ∃ x ∈ data, x.1 = i := by
      rw [mem_ofNat, hu]
    have e2 : (i : Int) ∈ ((npUnique (data.map Prod.fst)).map fun d : Nat => (d : Int) - 1) ↔
        ∃ x ∈ data, x.1 = i + 1 := by
      rw [List.mem_map]
      constructor
      · rintro ⟨n, hn, h⟩
        obtain ⟨x, hx, rfl⟩ := (hu n).1 hn
        exact ⟨x, hx, by omega⟩
      · rintro ⟨x, hx, h⟩; exact ⟨i + 1, (hu _).2 ⟨x, hx, h⟩, by omega⟩
    refine ⟨fun h => (hqs i hi).1 (e1.2 h), fun h => ?_, fun h => (hbs i hi).1 (e2.2 h), fun h => ?_⟩
    · rw [(hqs i hi).2 (fun h' => h (e1.1 h')), empty_get i hi]
    · rw [(hbs i hi).2 (fun h' => h (e2.1 h')), empty_get i hi]

/-- With fields of dimension three and one there is no rule for triangles in the
mixed-dimensional space, and no boundary rule for edges. -/
example : mdRules (ρ := Nat × Int) (fun d o => .ok (d, o)) (0, 0) {} [(3, 1), (1, 0)] =
    (⟨some 3, some [none, some (1, 3), none, some (3, 3)],
      some [some (0, 0), none, some (2, 3), none]⟩, none) := rfl

/-- C130: every field finds the same rule in both spaces, in its own dimension and on its
boundary. -/
theorem C130_agree (s : MdRules ρ) (hk : IsTopOrder data k)
    (hd : ∀ p ∈ data, 1 ≤ p.1 ∧ p.1 ≤ 3) (hm : Makes mk (2 * k + 1)) :
    ∃ R q b, productRules mk pt data = .ok R ∧
      mdRules mk pt s data = (⟨some R.order, some q, some b⟩, none) ∧
      R.bcQuad = b ∧ ∀ p ∈ data, R.quad[p.1]? = q[p.1]? ∧
        (∃ r, q[p.1]? = some (some r)) ∧ ∃ r, b[p.1 - 1]? = some (some r) := by
  obtain ⟨R, hR, ho, -, hbl, hs⟩ := C130_rules (pt := pt) hk hd hm
  obtain ⟨q, b, hmd, -, hbl', hs'⟩ := C130_md (pt := pt) s hk hd hm
  refine ⟨R, q, b, hR, ho ▸ hmd, ?_, ?_⟩
  · apply List.ext_getElem?
    intro i
    by_cases hi : i < 4
    · by_cases hex : ∃ p ∈ data, p.1 = i + 1
      · obtain ⟨r, hr, h1⟩ := (hs i hi).2.2.1 hex
        obtain ⟨r', hr', h2⟩ := (hs' i hi).2.2.1 hex
        rw [h1, h2, ruleFor_unique hr hr']
      · rw [(hs i hi).2.2.2 hex, (hs' i hi).2.2.2 hex]
    · rw [List.getElem?_eq_none (by omega), List.getElem?_eq_none (by omega)]
  · intro p hp
    have hpd := hd p hp
    obtain ⟨r, hr, h1⟩ := (hs p.1 (by omega)).1 ⟨p, hp, le_rfl⟩
    obtain ⟨r', hr', h2⟩ := (hs' p.1 (by omega)).1 ⟨p, hp, rfl⟩
    obtain ⟨r'', -, h3⟩ := (hs' (p.1 - 1) (by omega)).2.2.1 ⟨p, hp, by omega⟩
    exact ⟨by rw [h1, h2, ruleFor_unique hr hr'], ⟨r', h2⟩, r'', h3⟩

/-- C130: when the rules of basix are exact to the degree asked for, the rule of a field integrates
the product of any two of its polynomials, and also a third factor of degree one, exactly; the
same for two polynomials of different fields of the same dimension. -/
theorem C130_exact (hk : IsTopOrder data k) (hd : ∀ p ∈ data, 1 ≤ p.1 ∧ p.1 ≤ 3)
    (hm : Makes mk (2 * k + 1))
    (apply : (d : Nat) → ρ → MvPolynomial (Fin d) ℝ → ℝ)
    (integral : (d : Nat) → MvPolynomial (Fin d) ℝ → ℝ)
    (hex : ∀ d order r, 1 ≤ d → mk d order = .ok r → ExactTo (apply d) (integral d) r order) :
    ∃ R, productRules mk pt data = .ok R ∧ ∀ p ∈ data, ∀ p' ∈ data, p.1 = p'.1 →
      ∃ r, R.quad[p.1]? = some (some r) ∧ ∀ P Q L : MvPolynomial (Fin p.1) ℝ,
        (P.totalDegree : Int) ≤ p.2 → (Q.totalDegree : Int) ≤ p'.2 → L.totalDegree ≤ 1 →
        apply p.1 r (P * Q * L) = integral p.1 (P * Q * L) := by
  obtain ⟨R, hR, -, -, -, hs⟩ := C130_rules (pt := pt) hk hd hm
  refine ⟨R, hR, fun p hp p' hp' _ => ?_⟩
  have hpd := hd p hp
  obtain ⟨r, hr, h1⟩ := (hs p.1 (by omega)).1 ⟨p, hp, le_rfl⟩
  refine ⟨r, h1, fun P Q L hP hQ hL => ?_⟩
  refine hex p.1 _ r hpd.1 (hr.2 (by omega)) _ ?_
  have h2 := MvPolynomial.totalDegree_mul P Q
  have h3 := MvPolynomial.totalDegree_mul (P * Q) L
  have := hk.2 p hp
  have := hk.2 p' hp'
  have h4 : (((P * Q * L).totalDegree : Nat) : Int) ≤ P.totalDegree + Q.totalDegree + L.totalDegree := by
    exact_mod_cast (le_trans h3 (Nat.add_le_add_right h2 _))
  have h5 : (L.totalDegree : Int) ≤ 1 := by exact_mod_cast hL
  linarith

/-- The degree asked for is reached: for one field of order one there is a rule, exact to degree
three, which is wrong for the product of four factors of degree one. -/
example : IsTopOrder [(1, 1)] 1 ∧ (∀ p ∈ ([(1, 1)] : List (Nat × Int)), 1 ≤ p.1 ∧ p.1 ≤ 3) ∧
    ∃ (apply integral : (d : Nat) → MvPolynomial (Fin d) ℝ → ℝ),
      (∀ d, ExactTo (ρ := Unit) (fun _ => apply d) (integral d) () 3) ∧
      apply 1 (MvPolynomial.X 0 ^ 4) ≠ integral 1 (MvPolynomial.X 0 ^ 4) := by
  refine ⟨⟨⟨(1, 1), by simp, rfl⟩, by decide⟩, by decide,
    fun _ P => if P.totalDegree ≤ 3 then 0 else 1, fun _ _ => 0, ?_, ?_⟩
  · intro d P hP
    have : P.totalDegree ≤ 3 := by exact_mod_cast hP
    simp [this]
  · simp [MvPolynomial.totalDegree_X_pow]

/-- C130: what is raised.  Without fields `ValueError`; with a field of dimension above three
`KeyError`; what basix raises for the dimension one goes through when all fields have at least
this dimension. -/
theorem C130_errors :
    productRules mk pt [] = .error .valueError ∧
    (∀ s : MdRules ρ, mdRules mk pt s [] = (s, some .valueError)) ∧
    (IsTopOrder data k → Makes mk (2 * k + 1) → (∃ p ∈ data, 3 < p.1) →
      productRules mk pt data = .error .keyError) ∧
    (IsTopOrder data k → Makes mk (2 * k + 1) → (∃ p ∈ data, 3 < p.1) → ∀ s : MdRules ρ,
      (mdRules mk pt s data).2 = some .keyError ∧ (mdRules mk pt s data).1.bcQuad = s.bcQuad) ∧
    (IsTopOrder data k → (∃ p ∈ data, 1 ≤ p.1) → ∀ e, mk 1 (2 * k + 1) = .error e →
      productRules mk pt data = .error e) := by
  refine ⟨rfl, fun _ => rfl, ?_, ?_, ?_⟩
  · intro hk hm ⟨p, hp, h3⟩
    have hne := topOrder_ne hk
    obtain ⟨k', hk', htop⟩ := maxInt_spec hne
    obtain rfl := top_unique hk htop
    obtain ⟨m, hm1, -, hle⟩ := npMax_dims hne
    have h4 : 3 < m := lt_of_lt_of_le h3 (hle p hp)
    have hsplit : (List.range (m + 1)).map Int.ofNat =
        ([0, 1, 2, 3] : List Int) ++ 4 :: ((List.range (m - 4)).map fun i => Int.ofNat (i + 5)) := by
      obtain ⟨n, rfl⟩ := Nat.exists_eq_add_of_lt h4
      have e : 3 + n + 1 + 1 = 5 + n := by omega
      have e' : 3 + n + 1 - 4 = n := by omega
      rw [e, e', List.range_add, List.map_append]
      simp [List.map_map, List.range_succ, Function.comp_def, add_comm]
    have hf := fill_error (mk := mk) (pt := pt) (order := 2 * k + 1) [0, 1, 2, 3] 4
      ((List.range (m - 4)).map fun i => Int.ofNat (i + 5)) (empty ρ) .keyError (by
        intro x hx
        have : 0 ≤ x ∧ x ≤ 3 := by
          simp only [List.mem_cons, List.not_mem_nil, or_false] at hx
          omega
        exact served_of hm this.1 this.2) (fun l => setRule_key (by omega))
    rw [← hsplit] at hf
    simp only [productRules, hk', hm1, Res.bind_ok]
    split
    · rename_i h; rw [h] at hf; simpa using hf
    · rename_i h; rw [h] at hf; simp at hf
  · intro hk hm ⟨p, hp, h3⟩ s
    have hne := topOrder_ne hk
    obtain ⟨k', hk', htop⟩ := maxInt_spec hne
    obtain rfl := top_unique hk htop
    have hf : (fill mk pt (2 * k + 1) ((npUnique (data.map Prod.fst)).map Int.ofNat)
        (empty ρ)).2 = some .keyError := by
      rcases first_bad (fun d => 0 ≤ d ∧ d ≤ 3) ((npUnique (data.map Prod.fst)).map Int.ofNat) with
        h | ⟨pre, d, post, he, hpre, hbad⟩
      · have hmem : (p.1 : Int) ∈ (npUnique (data.map Prod.fst)).map Int.ofNat :=
          mem_ofNat.2 (mem_npUnique.2 (List.mem_map_of_mem hp))
        have := h _ hmem
        omega
      · rw [he]
        exact fill_error pre d post _ _ (fun x hx => served_of hm (hpre x hx).1 (hpre x hx).2)
          (fun l => setRule_key hbad)
    simp only [mdRules, hk']
    split
    · rename_i h; rw [h] at hf; exact ⟨hf, rfl⟩
    · rename_i h; rw [h] at hf; simp at hf
  · intro hk ⟨p, hp, h1⟩ e he
    have hne := topOrder_ne hk
    obtain ⟨k', hk', htop⟩ := maxInt_spec hne
    obtain rfl := top_unique hk htop
    obtain ⟨m, hm1, -, hle⟩ := npMax_dims hne
    have h4 : 1 ≤ m := le_trans h1 (hle p hp)
    have hsplit : (List.range (m + 1)).map Int.ofNat =
        ([0] : List Int) ++ 1 :: ((List.range (m - 1)).map fun i => Int.ofNat (i + 2)) := by
      obtain ⟨n, rfl⟩ := Nat.exists_eq_add_of_le h4
      have e : 1 + n + 1 = 2 + n := by omega
      have e' : 1 + n - 1 = n := by omega
      rw [e, e', List.range_add, List.map_append]
      simp [List.map_map, List.range_succ, Function.comp_def, add_comm]
    have hf := fill_error (mk := mk) (pt := pt) (order := 2 * k + 1) [0] 1
      ((List.range (m - 1)).map fun i => Int.ofNat (i + 2)) (empty ρ) e (by
        intro x hx
        obtain rfl : x = 0 := by simpa using hx
        exact ⟨le_rfl, by omega, fun h => absurd rfl h⟩) (fun l => by
          simp only [setRule, if_neg (by omega : ¬ (1 : Int) = 0), typeByDimension,
            if_pos (by omega : (0 : Int) ≤ 1 ∧ (1 : Int) ≤ 3)]
          show (mk 1 (2 * k + 1) >>= _) = _
          rw [he]; rfl)
    rw [← hsplit] at hf
    simp only [productRules, hk', hm1, Res.bind_ok]
    split
    · rename_i h; rw [h] at hf; simpa using hf
    · rename_i h; rw [h] at hf; simp at hf

example : IsTopOrder [(4, 1)] 1 ∧ (∃ p ∈ ([(4, 1)] : List (Nat × Int)), 3 < p.1) ∧
    Makes (ρ := Nat × Int) (fun d o => .ok (d, o)) (2 * 1 + 1) ∧
    productRules (ρ := Nat × Int) (fun d o => if o < 0 then .error .valueError else .ok (d, o)) (0, 0)
      [(2, -1)] = .error .valueError :=
  ⟨⟨⟨(4, 1), by simp, rfl⟩, by decide⟩, ⟨(4, 1), by simp, by decide⟩, fun _ _ _ => ⟨_, rfl⟩, rfl⟩

/-- C130 is violated for fields on points: although both classes provide a rule for the dimension
zero, a field of this dimension raises `KeyError`, whatever the other fields (of dimension up to
three) are, for want of a boundary rule of dimension minus one. -/
theorem C130_points_violated (hk : IsTopOrder data k) (hm : Makes mk (2 * k + 1))
    (hd : ∀ p ∈ data, p.1 ≤ 3) (h0 : ∃ p ∈ data, p.1 = 0) :
    productRules mk pt data = .error .keyError ∧
    ∀ s : MdRules ρ, (mdRules mk pt s data).2 = some .keyError ∧
      ∃ q, (mdRules mk pt s data).1.quad = some q ∧ q[0]? = some (some pt) := by
  have hne := topOrder_ne hk
  obtain ⟨k', hk', htop⟩ := maxInt_spec hne
  obtain rfl := top_unique hk htop
  obtain ⟨p, hp, hp0⟩ := h0
  constructor
  · obtain ⟨m, hm1, ⟨p', hp', rfl⟩, hle⟩ := npMax_dims hne
    obtain ⟨q, hq, -, -⟩ := fill_ok (mk := mk) (pt := pt) (order := 2 * k + 1)
      ((List.range (p'.1 + 1)).map Int.ofNat) (empty ρ) rfl (by
        intro d hdm
        obtain ⟨n, hn, rfl⟩ := List.mem_map.1 hdm
        have := List.mem_range.1 hn
        have := hd p' hp'
        exact served_of hm (by simp) (by simp only [Int.ofNat_eq_natCast]; omega))
    have hf : (fill mk pt (2 * k + 1) (data.map fun p => (p.1 : Int) - 1) (empty ρ)).2 =
        some .keyError := by
      rcases first_bad (fun d => 0 ≤ d ∧ d ≤ 3) (data.map fun p => (p.1 : Int) - 1) with
        h | ⟨pre, d, post, he, hpre, hbad⟩
      · have := h ((p.1 : Int) - 1) (List.mem_map.2 ⟨p, hp, rfl⟩)
        omega
      · rw [he]
        exact fill_error pre d post _ _ (fun x hx => served_of hm (hpre x hx).1 (hpre x hx).2)
          (fun l => setRule_key hbad)
    simp only [productRules, hk', hm1, Res.bind_ok, hq]
    split
    · rename_i h; rw [h] at hf; simpa using hf
    · rename_i h; rw [h] at hf; simp at hf
  · intro s
    have hu : ∀ n, n ∈ npUnique (data.map Prod.fst) ↔ ∃ p ∈ data, p.1 = n := by
      intro n; rw [mem_npUnique, List.mem_map]
    obtain ⟨q, hq, -, hqs⟩ := fill_ok (mk := mk) (pt := pt) (order := 2 * k + 1)
      ((npUnique (data.map Prod.fst)).map Int.ofNat) (empty ρ) rfl (by
        intro d hdm
        obtain ⟨n, hn, rfl⟩ := List.mem_map.1 hdm
        obtain ⟨x, hx, rfl⟩ := (hu n).1 hn
        have := hd x hx
        exact served_of hm (by simp) (by simp only [Int.ofNat_eq_natCast]; omega))
    obtain ⟨r, hr, hq0⟩ := (hqs 0 (by omega)).1 (mem_ofNat.2 ((hu 0).2 ⟨p, hp, hp0⟩))
    have hf : (fill mk pt (2 * k + 1) ((npUnique (data.map Prod.fst)).map fun d : Nat => (d : Int) - 1)
        (empty ρ)).2 = some .keyError := by
      rcases first_bad (fun d => 0 ≤ d ∧ d ≤ 3)
          ((npUnique (data.map Prod.fst)).map fun d : Nat => (d : Int) - 1) with
        h | ⟨pre, d, post, he, hpre, hbad⟩
      · have := h ((0 : Nat) - 1) (List.mem_map.2 ⟨0, (hu 0).2 ⟨p, hp, hp0⟩, by simp⟩)
        simp at this
      · rw [he]
        exact fill_error pre d post _ _ (fun x hx => served_of hm (hpre x hx).1 (hpre x hx).2)
          (fun l => setRule_key hbad)
    simp only [mdRules, hk', hq]
    refine ⟨?_, q, rfl, ?_⟩
    · exact hf
    · rw [hq0, hr.1 rfl]

/-- The intersection points of a network of lines carry such a field. -/
example : IsTopOrder [(0, 0)] 0 ∧ (∀ p ∈ ([(0, 0)] : List (Nat × Int)), p.1 ≤ 3) ∧
    Makes (ρ := Nat × Int) (fun d o => .ok (d, o)) (2 * 0 + 1) :=
  ⟨⟨⟨(0, 0), by simp, rfl⟩, by decide⟩, by decide, fun _ _ _ => ⟨_, rfl⟩⟩

#print axioms C130_rules
#print axioms C130_md
#print axioms C130_agree
#print axioms C130_exact
#print axioms C130_errors
#print axioms C130_points_violated

end Verif.Quadrature
