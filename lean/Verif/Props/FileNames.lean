/-
Property theorems C138: the file names of the drivers of elasticity.
-/
import Verif.Spec.FileNames
import Verif.Lemmas.Prelude

namespace Verif.FileNames

variable {V C : Type}

/-! ### Texts with underscores -/

theorem split_last {a b x y : List Char} (hx : '_' ∉ x) (hy : '_' ∉ y)
    (h : a ++ '_' :: x = b ++ '_' :: y) : a = b ∧ x = y := by
  rcases List.append_eq_append_iff.1 h with ⟨z, hz, hz'⟩ | ⟨z, hz, hz'⟩
  · cases z with
    | nil => simp at hz hz'; exact ⟨hz.symm, hz'⟩
    | cons c z =>
      simp only [List.cons_append, List.cons.injEq] at hz'
      exact absurd (hz'.2 ▸ List.mem_append_right z List.mem_cons_self) hx
  · cases z with
    | nil => simp at hz hz'; exact ⟨hz, hz'.symm⟩
    | cons c z =>
      simp only [List.cons_append, List.cons.injEq] at hz'
      exact absurd (hz'.2 ▸ List.mem_append_right z List.mem_cons_self) hy

theorem chunk_inj {a b x y : String} (hx : '_' ∉ x.toList) (hy : '_' ∉ y.toList)
    (h : a ++ "_" ++ x = b ++ "_" ++ y) : a = b ∧ x = y := by
  have h' := congrArg String.toList h
  simp only [String.toList_append, List.append_assoc] at h'
  have := split_last (a := a.toList) (b := b.toList) hx hy h'
  exact ⟨String.toList_inj.1 this.1, String.toList_inj.1 this.2⟩

theorem append_right_inj' {a b s : String} (h : a ++ s = b ++ s) : a = b := by
  have h' := congrArg String.toList h
  simp only [String.toList_append] at h'
  exact String.toList_inj.1 (List.append_cancel_right h')

theorem append_left_inj' {a b s : String} (h : s ++ a = s ++ b) : a = b := by
  have h' := congrArg String.toList h
  simp only [String.toList_append] at h'
  exact String.toList_inj.1 (List.append_cancel_left h')

theorem nat_plain : Plain (fun n : Nat => toString n) := by
  constructor
  · intro v w h
    have h' : v.repr.toList = w.repr.toList := congrArg String.toList h
    rw [Nat.toList_repr, Nat.toList_repr] at h'
    have := congrArg (fun l => Nat.ofDigitChars 10 l 0) h'
    simpa only [Nat.ofDigitChars_ten_toDigits] using this
  · intro v h
    have h' : '_' ∈ v.repr.toList := h
    rw [Nat.toList_repr] at h'
    exact Nat.underscore_not_in_toDigits h'

theorem int_plain : Plain (fun n : Int => toString n) := by
  have minus : ∀ n : Nat, '-' ∉ (toString n).toList := by
    intro n h
    have h' : '-' ∈ n.repr.toList := h
    rw [Nat.toList_repr] at h'
    have := Nat.isDigit_of_mem_toDigits (by decide) (by decide) h'
    exact absurd this (by decide)
  have pos : ∀ n : Nat, toString (Int.ofNat n) = toString n := fun _ => rfl
  have neg : ∀ n : Nat, toString (Int.negSucc n) = "-" ++ toString (n + 1) := fun _ => rfl
  constructor
  · intro v w h
    match v, w with
    | .ofNat m, .ofNat n => simp only [pos] at h; rw [nat_plain.1 _ _ h]
    | .negSucc m, .negSucc n =>
      simp only [neg] at h
      have := nat_plain.1 _ _ (append_left_inj' h)
      rw [Nat.succ.inj this]
    | .ofNat m, .negSucc n =>
      simp only [pos, neg] at h
      exact absurd (by rw [h, String.toList_append]; exact List.mem_cons_self) (minus m)
    | .negSucc m, .ofNat n =>
      simp only [pos, neg] at h
      exact absurd (by rw [← h, String.toList_append]; exact List.mem_cons_self) (minus n)
  · intro v h
    match v with
    | .ofNat m => exact nat_plain.2 m h
    | .negSucc m =>
      simp only [neg, String.toList_append, List.mem_append] at h
      rcases h with h | h
      · exact absurd h (by decide)
      · exact nat_plain.2 _ h

theorem not_mem_append {x y : String} (hx : '_' ∉ x.toList) (hy : '_' ∉ y.toList) :
    '_' ∉ (x ++ y).toList := by
  rw [String.toList_append, List.mem_append]
  exact fun h => h.elim hx hy

/-- `start`, then the parts with an underscore before each -/
def chunks (start : String) (l : List String) : String := l.foldl (fun a x => a ++ "_" ++ x) start

theorem chunks_inj {a b : String} {l m : List String} (hn : l.length = m.length)
    (hl : ∀ x ∈ l, '_' ∉ x.toList) (hm : ∀ x ∈ m, '_' ∉ x.toList) (h : chunks a l = chunks b m) :
    a = b ∧ l = m := by
  induction l generalizing a b m with
  | nil => cases m with
    | nil => exact ⟨h, rfl⟩
    | cons => simp at hn
  | cons x l ih => cases m with
    | nil => simp at hn
    | cons y m =>
      have := ih (a := a ++ "_" ++ x) (b := b ++ "_" ++ y) (m := m) (by simpa using hn)
        (fun z hz => hl z (List.mem_cons_of_mem _ hz)) (fun z hz => hm z (List.mem_cons_of_mem _ hz)) h
      have h1 := chunk_inj (hl x List.mem_cons_self) (hm y List.mem_cons_self) this.1
      exact ⟨h1.1, by rw [h1.2, this.2]⟩

/-- two texts that end with different letters -/
theorem last_ne {a b : String} {x y : Char} (hxy : x ≠ y) : a ++ String.ofList [x] ≠ b ++ String.ofList [y] := by
  intro h
  have h' := congrArg String.toList h
  simp only [String.toList_append, String.toList_ofList] at h'
  have := congrArg List.getLast? h'
  simp at this
  exact hxy this

/-! ### Names tell the configurations -/

theorem getItem_same {d e : Dict String V} {k : String} {v w : V} (hv : d.getItem k = .ok v)
    (hw : e.getItem k = .ok w) (h : v = w) : d.getItem k = e.getItem k := by rw [hv, hw, h]

theorem plain_nil : ∀ x ∈ ([] : List String), '_' ∉ x.toList := by simp

theorem plain_cons {a : String} {l : List String} (ha : '_' ∉ a.toList)
    (hl : ∀ x ∈ l, '_' ∉ x.toList) : ∀ x ∈ a :: l, '_' ∉ x.toList := by
  intro x hx
  rcases List.mem_cons.1 hx with rfl | hx
  · exact ha
  · exact hl x hx

theorem nat_text (n : Nat) : '_' ∉ (toString n).toList := nat_plain.2 n

theorem nat_inj {m n : Nat} (h : toString m = toString n) : m = n := nat_plain.1 m n h

theorem int_inj {m n : Int} (h : toString m = toString n) : m = n := int_plain.1 m n h

theorem int_text (n : Int) : '_' ∉ (toString n).toList := int_plain.2 n

theorem cauchyOne_ok {str : V → String} {c : Config V} {l : Nat} {suffix s : String} :
    cauchyOne str c l suffix = .ok s ↔ ∃ v, c.material.getItem "lambda" = .ok v ∧
      s = chunks ("ex_1_" ++ c.method) ["lambda", str v, "l", toString l] ++ suffix := by
  have key : ∀ m a b : String, "ex_1_" ++ m ++ "_lambda_" ++ a ++ "_l_" ++ b ++ suffix
      = chunks ("ex_1_" ++ m) ["lambda", a, "l", b] ++ suffix := fun m a b =>
    String.toList_inj.1 (by simp [chunks, String.toList_append])
  simp only [cauchyOne, Res.bind_eq_ok, Res.pure_eq, key, Except.ok.injEq]
  exact exists_congr fun v => and_congr_right fun _ => eq_comm

theorem cauchyTwo_ok {str : V → String} {c : Config V} {l : Nat} {suffix s : String} :
    cauchyTwo str c l suffix = .ok s ↔ ∃ v, c.material.getItem "kappa" = .ok v ∧
      s = chunks ("ex_2_" ++ c.method) ["kappa", str v, "l", toString l] ++ suffix := by
  have key : ∀ m a b : String, "ex_2_" ++ m ++ "_kappa_" ++ a ++ "_l_" ++ b ++ suffix
      = chunks ("ex_2_" ++ m) ["kappa", a, "l", b] ++ suffix := fun m a b =>
    String.toList_inj.1 (by simp [chunks, String.toList_append])
  simp only [cauchyTwo, Res.bind_eq_ok, Res.pure_eq, key, Except.ok.injEq]
  exact exists_congr fun v => and_congr_right fun _ => eq_comm

theorem fvOne_ok {sci : V → String × Int} {c : Config V} {suffix s : String} :
    fvOne sci c suffix = .ok s ↔ ∃ v, c.material.getItem "lambda" = .ok v ∧
      s = chunks ("ex_1_" ++ c.method) ["lambda", "1e" ++ toString (sci v).2] ++ suffix := by
  have key : ∀ m a : String, "ex_1_" ++ m ++ "_lambda_" ++ "1e" ++ a ++ suffix
      = chunks ("ex_1_" ++ m) ["lambda", "1e" ++ a] ++ suffix := fun m a =>
    String.toList_inj.1 (by simp [chunks, String.toList_append])
  simp only [fvOne, Res.bind_eq_ok, Res.pure_eq, key, Except.ok.injEq]
  exact exists_congr fun v => and_congr_right fun _ => eq_comm

theorem fvTwo_ok {sci : V → String × Int} {c : Config V} {suffix s : String} :
    fvTwo sci c suffix = .ok s ↔ ∃ v, c.material.getItem "kappa" = .ok v ∧
      s = chunks ("ex_2_" ++ c.method) ["kappa", "1e" ++ toString (sci v).2] ++ suffix := by
  have key : ∀ m a : String, "ex_2_" ++ m ++ "_kappa_" ++ "1e" ++ a ++ suffix
      = chunks ("ex_2_" ++ m) ["kappa", "1e" ++ a] ++ suffix := fun m a =>
    String.toList_inj.1 (by simp [chunks, String.toList_append])
  simp only [fvTwo, Res.bind_eq_ok, Res.pure_eq, key, Except.ok.injEq]
  exact exists_congr fun v => and_congr_right fun _ => eq_comm

theorem cosseratTwo_ok {str : V → String} {c : Config V} {l : Nat} {suffix s : String} :
    cosseratTwo str c l suffix = .ok s ↔ ∃ v, c.material.getItem "lambda" = .ok v ∧
      ∃ w, c.material.getItem "gamma" = .ok w ∧
      s = chunks c.method ["lambda", str v, "gamma", str w, "k" ++ toString c.kOrder,
        "l" ++ toString l, toString c.dim ++ "d"] ++ suffix := by
  have key : ∀ m a b k l d : String, m ++ "_lambda_" ++ a ++ "_gamma_" ++ b ++ "_k" ++ k ++ "_l" ++ l
      ++ "_" ++ d ++ "d" ++ suffix
      = chunks m ["lambda", a, "gamma", b, "k" ++ k, "l" ++ l, d ++ "d"] ++ suffix :=
    fun m a b k l d => String.toList_inj.1 (by simp [chunks, String.toList_append])
  simp only [cosseratTwo, Res.bind_eq_ok, Res.pure_eq, key, Except.ok.injEq]
  exact exists_congr fun v => and_congr_right fun _ => exists_congr fun w => and_congr_right fun _ => eq_comm

theorem cosseratThree_ok {c : Config V} {l : Nat} {suffix s : String} :
    cosseratThree c l suffix = .ok s ↔
      s = chunks c.method ["k" ++ toString c.kOrder, "l" ++ toString l, toString c.dim ++ "d"] ++ suffix := by
  have key : ∀ m k l d : String, m ++ "_k" ++ k ++ "_l" ++ l ++ "_" ++ d ++ "d" ++ suffix
      = chunks m ["k" ++ k, "l" ++ l, d ++ "d"] ++ suffix :=
    fun m k l d => String.toList_inj.1 (by simp [chunks, String.toList_append])
  simp only [cosseratThree, Res.pure_eq, key, Except.ok.injEq]
  exact eq_comm

theorem ecmorThree_ok {c : Config V} {l : Nat} {suffix s : String} :
    ecmorThree c l suffix = .ok s ↔ s = chunks ("ex_3_" ++ c.method) ["l" ++ toString l] ++ suffix := by
  have key : ∀ m l : String, "ex_3_" ++ m ++ "_l" ++ l ++ suffix
      = chunks ("ex_3_" ++ m) ["l" ++ l] ++ suffix :=
    fun m l => String.toList_inj.1 (by simp [chunks, String.toList_append])
  simp only [ecmorThree, Res.pure_eq, key, Except.ok.injEq]
  exact eq_comm

/-- the parts of the name of the first Cosserat example, with and without level -/
def partsOne (str : V → String) (c : Config V) (v : Fin 7 → V) (l : Option Nat) : List String :=
  ["lambda", "s", str (v 0), "mu", "s", str (v 1), "kappa", "s", str (v 2), "lambda", "o", str (v 3),
    "mu", "p", str (v 4), "kappa", "o", str (v 5), "lc", str (v 6), "k" ++ toString c.kOrder]
    ++ (match l with | none => [] | some l => ["l" ++ toString l]) ++ [toString c.dim ++ "d"]

/-- the parameters in the name of the first Cosserat example -/
def Seven (c : Config V) (v : Fin 7 → V) : Prop :=
  c.material.getItem "lambda_s" = .ok (v 0) ∧ c.material.getItem "mu_s" = .ok (v 1) ∧
  c.material.getItem "kappa_s" = .ok (v 2) ∧ c.material.getItem "lambda_o" = .ok (v 3) ∧
  c.material.getItem "mu_o" = .ok (v 4) ∧ c.material.getItem "kappa_o" = .ok (v 5) ∧
  c.material.getItem "l" = .ok (v 6)

theorem cosseratOne_ok {str : V → String} {c : Config V} {l : Option Nat} {suffix s : String} :
    cosseratOne str c suffix l = .ok s ↔
      ∃ v, Seven c v ∧ s = chunks c.method (partsOne str c v l) ++ suffix := by
  have key1 : ∀ m x0 x1 x2 x3 x4 x5 x6 k d : String,
      m ++ "_lambda_s_" ++ x0 ++ "_mu_s_" ++ x1 ++ "_kappa_s_" ++ x2 ++ "_lambda_o_" ++ x3
        ++ "_mu_p_" ++ x4 ++ "_kappa_o_" ++ x5 ++ "_lc_" ++ x6 ++ "_k" ++ k ++ "_" ++ d ++ "d" ++ suffix
      = chunks m ["lambda", "s", x0, "mu", "s", x1, "kappa", "s", x2, "lambda", "o", x3,
          "mu", "p", x4, "kappa", "o", x5, "lc", x6, "k" ++ k, d ++ "d"] ++ suffix :=
    fun _ _ _ _ _ _ _ _ _ _ => String.toList_inj.1 (by simp [chunks, String.toList_append])
  have key2 : ∀ m x0 x1 x2 x3 x4 x5 x6 k l d : String,
      m ++ "_lambda_s_" ++ x0 ++ "_mu_s_" ++ x1 ++ "_kappa_s_" ++ x2 ++ "_lambda_o_" ++ x3
        ++ "_mu_p_" ++ x4 ++ "_kappa_o_" ++ x5 ++ "_lc_" ++ x6 ++ "_k" ++ k ++ "_l" ++ l
        ++ "_" ++ d ++ "d" ++ suffix
      = chunks m ["lambda", "s", x0, "mu", "s", x1, "kappa", "s", x2, "lambda", "o", x3,
          "mu", "p", x4, "kappa", "o", x5, "lc", x6, "k" ++ k, "l" ++ l, d ++ "d"] ++ suffix :=
    fun _ _ _ _ _ _ _ _ _ _ _ => String.toList_inj.1 (by simp [chunks, String.toList_append])
  cases l with
  | none =>
    simp only [cosseratOne, Res.bind_eq_ok, Res.pure_eq, key1, Except.ok.injEq]
    constructor
    · rintro ⟨v0, h0, v1, h1, v2, h2, v3, h3, v4, h4, v5, h5, v6, h6, rfl⟩
      exact ⟨fun i => match i with
        | 0 => v0 | 1 => v1 | 2 => v2 | 3 => v3 | 4 => v4 | 5 => v5 | 6 => v6,
        ⟨h0, h1, h2, h3, h4, h5, h6⟩, rfl⟩
    · rintro ⟨v, ⟨h0, h1, h2, h3, h4, h5, h6⟩, rfl⟩
      exact ⟨_, h0, _, h1, _, h2, _, h3, _, h4, _, h5, _, h6, rfl⟩
  | some l =>
    simp only [cosseratOne, Res.bind_eq_ok, Res.pure_eq, key2, Except.ok.injEq]
    constructor
    · rintro ⟨v0, h0, v1, h1, v2, h2, v3, h3, v4, h4, v5, h5, v6, h6, rfl⟩
      exact ⟨fun i => match i with
        | 0 => v0 | 1 => v1 | 2 => v2 | 3 => v3 | 4 => v4 | 5 => v5 | 6 => v6,
        ⟨h0, h1, h2, h3, h4, h5, h6⟩, rfl⟩
    · rintro ⟨v, ⟨h0, h1, h2, h3, h4, h5, h6⟩, rfl⟩
      exact ⟨_, h0, _, h1, _, h2, _, h3, _, h4, _, h5, _, h6, rfl⟩

/-- First Cauchy example: the name tells method, Lamé parameter and level, for every suffix. -/
theorem C138_cauchy_one {str : V → String} (hs : Plain str) {c c' : Config V} {l l' : Nat} {suffix s : String}
    (h : cauchyOne str c l suffix = .ok s) (h' : cauchyOne str c' l' suffix = .ok s) :
    c.method = c'.method ∧ c.material.getItem "lambda" = c'.material.getItem "lambda" ∧ l = l' := by
  obtain ⟨v, hv, rfl⟩ := cauchyOne_ok.1 h
  obtain ⟨w, hw, e⟩ := cauchyOne_ok.1 h'
  have p : ∀ (a : V) (n : Nat), ∀ x ∈ ["lambda", str a, "l", toString n], '_' ∉ x.toList := fun a n =>
    plain_cons (by decide) (plain_cons (hs.2 a) (plain_cons (by decide) (plain_cons (nat_text n) plain_nil)))
  have e := append_right_inj' e
  have e := chunks_inj (by rfl) (p v l) (p w l') e
  simp only [List.cons.injEq, and_true, true_and] at e
  exact ⟨append_left_inj' e.1, getItem_same hv hw (hs.1 _ _ e.2.1), nat_inj e.2.2⟩

/-- Second Cauchy example: the name tells method, `kappa` and level. -/
theorem C138_cauchy_two {str : V → String} (hs : Plain str) {c c' : Config V} {l l' : Nat} {suffix s : String}
    (h : cauchyTwo str c l suffix = .ok s) (h' : cauchyTwo str c' l' suffix = .ok s) :
    c.method = c'.method ∧ c.material.getItem "kappa" = c'.material.getItem "kappa" ∧ l = l' := by
  obtain ⟨v, hv, rfl⟩ := cauchyTwo_ok.1 h
  obtain ⟨w, hw, e⟩ := cauchyTwo_ok.1 h'
  have p : ∀ (a : V) (n : Nat), ∀ x ∈ ["kappa", str a, "l", toString n], '_' ∉ x.toList := fun a n =>
    plain_cons (by decide) (plain_cons (hs.2 a) (plain_cons (by decide) (plain_cons (nat_text n) plain_nil)))
  have e := append_right_inj' e
  have e := chunks_inj (by rfl) (p v l) (p w l') e
  simp only [List.cons.injEq, and_true, true_and] at e
  exact ⟨append_left_inj' e.1, getItem_same hv hw (hs.1 _ _ e.2.1), nat_inj e.2.2⟩

/-- First Cosserat example: the name tells method, all parameters, order, dimension and level. -/
theorem C138_cosserat_one {str : V → String} (hs : Plain str) {c c' : Config V} {l l' : Option Nat} {suffix s : String}
    (h : cosseratOne str c suffix l = .ok s) (h' : cosseratOne str c' suffix l' = .ok s)
    (hl : l.isSome = l'.isSome) :
    c.method = c'.method ∧ (∃ v, Seven c v ∧ Seven c' v) ∧ c.kOrder = c'.kOrder ∧ c.dim = c'.dim ∧ l = l' := by
  obtain ⟨v, hv, rfl⟩ := cosseratOne_ok.1 h
  obtain ⟨w, hw, e⟩ := cosseratOne_ok.1 h'
  have tail : ∀ (c : Config V) (l : Option Nat), ∀ x ∈ ((match l with | none => [] | some l => ["l" ++ toString l])
      ++ [toString c.dim ++ "d"]), '_' ∉ x.toList := by
    intro c l
    have hd : '_' ∉ (toString c.dim ++ "d").toList := not_mem_append (nat_text _) (by decide)
    cases l with
    | none => exact plain_cons hd plain_nil
    | some l => exact plain_cons (not_mem_append (by decide) (nat_text l)) (plain_cons hd plain_nil)
  have p : ∀ (c : Config V) (v : Fin 7 → V) (l : Option Nat), ∀ x ∈ partsOne str c v l, '_' ∉ x.toList := by
    intro c v l
    rw [partsOne.eq_def, List.append_assoc]
    exact plain_cons (by decide) (plain_cons (by decide) (plain_cons (hs.2 _) (plain_cons (by decide)
      (plain_cons (by decide) (plain_cons (hs.2 _) (plain_cons (by decide) (plain_cons (by decide)
      (plain_cons (hs.2 _) (plain_cons (by decide) (plain_cons (by decide) (plain_cons (hs.2 _)
      (plain_cons (by decide) (plain_cons (by decide) (plain_cons (hs.2 _) (plain_cons (by decide)
      (plain_cons (by decide) (plain_cons (hs.2 _) (plain_cons (by decide) (plain_cons (hs.2 _)
      (plain_cons (not_mem_append (by decide) (nat_text _)) (tail c l)))))))))))))))))))))
  have hlen : (partsOne str c v l).length = (partsOne str c' w l').length := by
    cases l <;> cases l' <;> simp_all [partsOne]
  have e := chunks_inj hlen (p c v l) (p c' w l') (append_right_inj' e)
  obtain ⟨em, e⟩ := e
  have fin : ∀ l1 l2 : List String, ∀ x y : String, l1 ++ [x] = l2 ++ [y] → l1 = l2 ∧ x = y := by
    intro l1 l2 x y h
    have := List.append_inj' h rfl
    exact ⟨this.1, by simpa using this.2⟩
  have e' := fin _ _ _ _ e
  have ed : c.dim = c'.dim := nat_inj (append_right_inj' e'.2)
  have rest : ∀ {k k' : Nat} {a b : Fin 7 → V}, ["lambda", "s", str (a 0), "mu", "s", str (a 1), "kappa", "s", str (a 2), "lambda", "o",
      str (a 3), "mu", "p", str (a 4), "kappa", "o", str (a 5), "lc", str (a 6), "k" ++ toString k]
      = ["lambda", "s", str (b 0), "mu", "s", str (b 1), "kappa", "s", str (b 2), "lambda", "o",
      str (b 3), "mu", "p", str (b 4), "kappa", "o", str (b 5), "lc", str (b 6), "k" ++ toString k'] →
      a = b ∧ k = k' := by
    intro k k' a b h
    simp only [List.cons.injEq, and_true, true_and] at h
    obtain ⟨h0, h1, h2, h3, h4, h5, h6, hk⟩ := h
    refine ⟨funext fun i => ?_, nat_inj (append_left_inj' hk)⟩
    match i with
    | 0 => exact hs.1 _ _ h0
    | 1 => exact hs.1 _ _ h1
    | 2 => exact hs.1 _ _ h2
    | 3 => exact hs.1 _ _ h3
    | 4 => exact hs.1 _ _ h4
    | 5 => exact hs.1 _ _ h5
    | 6 => exact hs.1 _ _ h6
  cases l with
  | none => cases l' with
    | none =>
      have r := rest (by simpa only [List.append_nil] using e'.1)
      exact ⟨em, ⟨v, hv, r.1 ▸ hw⟩, r.2, ed, rfl⟩
    | some _ => simp at hl
  | some n => cases l' with
    | none => simp at hl
    | some n' =>
      have e2 := fin _ _ _ _ e'.1
      have r := rest e2.1
      exact ⟨em, ⟨v, hv, r.1 ▸ hw⟩, r.2, ed, by rw [nat_inj (append_left_inj' e2.2)]⟩

theorem chunks_append (a : String) (l m : List String) : chunks a (l ++ m) = chunks (chunks a l) m :=
  List.foldl_append

/-- First Cosserat example: a name without level (pictures, tables) is never one with level. -/
theorem C138_cosserat_level {str : V → String} {c c' : Config V} {l : Nat} {suffix s : String}
    (h : cosseratOne str c suffix none = .ok s) : cosseratOne str c' suffix (some l) ≠ .ok s := by
  intro h'
  obtain ⟨v, -, rfl⟩ := cosseratOne_ok.1 h
  obtain ⟨w, -, e⟩ := cosseratOne_ok.1 h'
  have e := append_right_inj' e
  have p : ∀ (a : String) (d : Nat), '_' ∉ a.toList → ∀ x ∈ [a, toString d ++ "d"], '_' ∉ x.toList :=
    fun a d ha => plain_cons ha (plain_cons (not_mem_append (nat_text d) (by decide)) plain_nil)
  rw [show partsOne str c v none = (partsOne str c v none).take 20 ++ ["k" ++ toString c.kOrder, toString c.dim ++ "d"]
      from rfl,
    show partsOne str c' w (some l) = (partsOne str c' w (some l)).take 21 ++ ["l" ++ toString l, toString c'.dim ++ "d"]
      from rfl, chunks_append, chunks_append] at e
  have e := (chunks_inj (by rfl) (p _ _ (not_mem_append (by decide) (nat_text _)))
    (p _ _ (not_mem_append (by decide) (nat_text _))) e).2
  simp only [List.cons.injEq] at e
  have e := congrArg String.toList e.1
  simp only [String.toList_append] at e
  have e : 'k' :: (toString c.kOrder).toList = 'l' :: (toString l).toList := e
  exact absurd (List.cons.inj e).1 (by decide)

/-- Second Cosserat example: the name tells method, `lambda`, `gamma`, order, dimension and level. -/
theorem C138_cosserat_two {str : V → String} (hs : Plain str) {c c' : Config V} {l l' : Nat} {suffix s : String}
    (h : cosseratTwo str c l suffix = .ok s) (h' : cosseratTwo str c' l' suffix = .ok s) :
    c.method = c'.method ∧ c.material.getItem "lambda" = c'.material.getItem "lambda" ∧
      c.material.getItem "gamma" = c'.material.getItem "gamma" ∧ c.kOrder = c'.kOrder ∧ c.dim = c'.dim ∧ l = l' := by
  obtain ⟨v, hv, x, hx, rfl⟩ := cosseratTwo_ok.1 h
  obtain ⟨w, hw, y, hy, e⟩ := cosseratTwo_ok.1 h'
  have p : ∀ (a b : V) (k n d : Nat), ∀ x ∈ ["lambda", str a, "gamma", str b, "k" ++ toString k,
      "l" ++ toString n, toString d ++ "d"], '_' ∉ x.toList := fun a b k n d =>
    plain_cons (by decide) (plain_cons (hs.2 a) (plain_cons (by decide) (plain_cons (hs.2 b)
      (plain_cons (not_mem_append (by decide) (nat_text k)) (plain_cons (not_mem_append (by decide) (nat_text n))
        (plain_cons (not_mem_append (nat_text d) (by decide)) plain_nil))))))
  have e := append_right_inj' e
  have e := chunks_inj (by rfl) (p _ _ _ _ _) (p _ _ _ _ _) e
  simp only [List.cons.injEq, and_true, true_and] at e
  obtain ⟨em, e1, e2, e3, e4, e5⟩ := e
  exact ⟨em, getItem_same hv hw (hs.1 _ _ e1), getItem_same hx hy (hs.1 _ _ e2),
    nat_inj (append_left_inj' e3), nat_inj (append_right_inj' e5), nat_inj (append_left_inj' e4)⟩

/-- Third Cosserat example: the name tells method, order, dimension and level. -/
theorem C138_cosserat_three {c c' : Config V} {l l' : Nat} {suffix s : String}
    (h : cosseratThree c l suffix = .ok s) (h' : cosseratThree c' l' suffix = .ok s) :
    c.method = c'.method ∧ c.kOrder = c'.kOrder ∧ c.dim = c'.dim ∧ l = l' := by
  have e := (cosseratThree_ok.1 h).symm.trans (cosseratThree_ok.1 h')
  have p : ∀ (k n d : Nat), ∀ x ∈ ["k" ++ toString k, "l" ++ toString n, toString d ++ "d"], '_' ∉ x.toList :=
    fun k n d => plain_cons (not_mem_append (by decide) (nat_text k)) (plain_cons (not_mem_append (by decide) (nat_text n))
        (plain_cons (not_mem_append (nat_text d) (by decide)) plain_nil))
  have e := append_right_inj' e
  have e := chunks_inj (by rfl) (p _ _ _) (p _ _ _) e
  simp only [List.cons.injEq, and_true] at e
  obtain ⟨em, e3, e4, e5⟩ := e
  exact ⟨em, nat_inj (append_left_inj' e3), nat_inj (append_right_inj' e5), nat_inj (append_left_inj' e4)⟩

/-- Third example of the comparison with finite volumes: the name tells method and level. -/
theorem C138_ecmor {c c' : Config V} {l l' : Nat} {suffix s : String}
    (h : ecmorThree c l suffix = .ok s) (h' : ecmorThree c' l' suffix = .ok s) : c.method = c'.method ∧ l = l' := by
  have e := (ecmorThree_ok.1 h).symm.trans (ecmorThree_ok.1 h')
  have p : ∀ (n : Nat), ∀ x ∈ ["l" ++ toString n], '_' ∉ x.toList :=
    fun n => plain_cons (not_mem_append (by decide) (nat_text n)) plain_nil
  have e := append_right_inj' e
  have e := chunks_inj (by rfl) (p _) (p _) e
  simp only [List.cons.injEq, and_true] at e
  exact ⟨append_left_inj' e.1, nat_inj (append_left_inj' e.2)⟩

/-- Names of the results of finite volumes tell method and decimal exponent. -/
theorem C138_fv {sci : V → String × Int} {c c' : Config V} {suffix s : String}
    (h : fvOne sci c suffix = .ok s) (h' : fvOne sci c' suffix = .ok s) :
    c.method = c'.method ∧ ∃ v w, c.material.getItem "lambda" = .ok v ∧ c'.material.getItem "lambda" = .ok w ∧
      (sci v).2 = (sci w).2 := by
  obtain ⟨v, hv, rfl⟩ := fvOne_ok.1 h
  obtain ⟨w, hw, e⟩ := fvOne_ok.1 h'
  have p : ∀ (n : Int), ∀ x ∈ ["lambda", "1e" ++ toString n], '_' ∉ x.toList :=
    fun n => plain_cons (by decide) (plain_cons (not_mem_append (by decide) (int_text n)) plain_nil)
  have e := append_right_inj' e
  have e := chunks_inj (by rfl) (p _) (p _) e
  simp only [List.cons.injEq, and_true, true_and] at e
  exact ⟨append_left_inj' e.1, v, w, hv, hw, int_inj (append_left_inj' e.2)⟩

/-- The same in the second example, with `kappa`. -/
theorem C138_fv_two {sci : V → String × Int} {c c' : Config V} {suffix s : String}
    (h : fvTwo sci c suffix = .ok s) (h' : fvTwo sci c' suffix = .ok s) :
    c.method = c'.method ∧ ∃ v w, c.material.getItem "kappa" = .ok v ∧ c'.material.getItem "kappa" = .ok w ∧
      (sci v).2 = (sci w).2 := by
  obtain ⟨v, hv, rfl⟩ := fvTwo_ok.1 h
  obtain ⟨w, hw, e⟩ := fvTwo_ok.1 h'
  have p : ∀ (n : Int), ∀ x ∈ ["kappa", "1e" ++ toString n], '_' ∉ x.toList :=
    fun n => plain_cons (by decide) (plain_cons (not_mem_append (by decide) (int_text n)) plain_nil)
  have e := append_right_inj' e
  have e := chunks_inj (by rfl) (p _) (p _) e
  simp only [List.cons.injEq, and_true, true_and] at e
  exact ⟨append_left_inj' e.1, v, w, hv, hw, int_inj (append_left_inj' e.2)⟩

/-! ### The two files of a level are different -/

theorem apart_of {name : Naming V} {a b : String} {pre : Config V → Nat → String → Prop} {x y : Char} {a' b' : String}
    (ha : a = a' ++ String.ofList [x]) (hb : b = b' ++ String.ofList [y]) (hxy : x ≠ y)
    (h : ∀ c l suffix s, name c l suffix = .ok s → ∃ p, pre c l p ∧ s = p ++ suffix) : Apart name a b := by
  intro c c' l l' s h1 h2
  obtain ⟨p, -, e1⟩ := h _ _ _ _ h1
  obtain ⟨q, -, e2⟩ := h _ _ _ _ h2
  rw [ha] at e1
  rw [hb] at e2
  have e := e1.symm.trans e2
  rw [← String.append_assoc, ← String.append_assoc] at e
  exact last_ne hxy e

/-- The vector and the residuals of a level never go to the same file. -/
theorem C138_apart (str : V → String) :
    Apart (cauchyOne str) "_alpha.npy" "_res_history.txt" ∧ Apart (cauchyTwo str) "_alpha.npy" "_res_history.txt" ∧
    Apart (fun c l s => cosseratOne str c s (some l)) "_alpha_ex_1.npy" "_res_history_ex_1.txt" ∧
    Apart (cosseratTwo str) "_alpha_ex_2.npy" "_res_history_ex_2.txt" ∧
    Apart (V := V) cosseratThree "_alpha_ex_3.npy" "_res_history_ex_3.txt" ∧
    Apart (V := V) ecmorThree "_alpha.npy" "_res_history.txt" := by
  refine ⟨apart_of (pre := fun _ _ _ => True) (x := 'y') (y := 't') (a' := "_alpha.np") (b' := "_res_history.tx") rfl rfl (by decide) ?_,
    apart_of (pre := fun _ _ _ => True) (x := 'y') (y := 't') (a' := "_alpha.np") (b' := "_res_history.tx") rfl rfl (by decide) ?_,
    apart_of (pre := fun _ _ _ => True) (x := 'y') (y := 't') (a' := "_alpha_ex_1.np") (b' := "_res_history_ex_1.tx") rfl rfl (by decide) ?_,
    apart_of (pre := fun _ _ _ => True) (x := 'y') (y := 't') (a' := "_alpha_ex_2.np") (b' := "_res_history_ex_2.tx") rfl rfl (by decide) ?_,
    apart_of (pre := fun _ _ _ => True) (x := 'y') (y := 't') (a' := "_alpha_ex_3.np") (b' := "_res_history_ex_3.tx") rfl rfl (by decide) ?_,
    apart_of (pre := fun _ _ _ => True) (x := 'y') (y := 't') (a' := "_alpha.np") (b' := "_res_history.tx") rfl rfl (by decide) ?_⟩
  · intro c l suffix s h
    obtain ⟨v, -, e⟩ := cauchyOne_ok.1 h
    exact ⟨_, trivial, e⟩
  · intro c l suffix s h
    obtain ⟨v, -, e⟩ := cauchyTwo_ok.1 h
    exact ⟨_, trivial, e⟩
  · intro c l suffix s h
    obtain ⟨v, -, e⟩ := cosseratOne_ok.1 h
    exact ⟨_, trivial, e⟩
  · intro c l suffix s h
    obtain ⟨v, -, w, -, e⟩ := cosseratTwo_ok.1 h
    exact ⟨_, trivial, e⟩
  · intro c l suffix s h
    exact ⟨_, trivial, cosseratThree_ok.1 h⟩
  · intro c l suffix s h
    exact ⟨_, trivial, ecmorThree_ok.1 h⟩

/-! ### What is read is what was written -/

theorem foldlM_keeps {α β : Type} {f : β → α → Res β} {P : β → Prop} {l : List α}
    (h : ∀ x ∈ l, ∀ b b', P b → f b x = .ok b' → P b') {b b' : β} (hb : P b) (hr : l.foldlM f b = .ok b') : P b' := by
  induction l generalizing b with
  | nil => cases hr; exact hb
  | cons x l ih =>
    rw [List.foldlM_cons, Res.bind_eq_ok] at hr
    obtain ⟨b1, h1, h2⟩ := hr
    exact ih (fun y hy => h y (List.mem_cons_of_mem _ hy)) (h x List.mem_cons_self b b1 hb h1) h2

theorem foldlM_gets {α β : Type} {f : β → α → Res β} {P : β → Prop} {l : List α}
    (h : ∀ x ∈ l, ∀ b b', P b → f b x = .ok b' → P b') {x : α} (hx : x ∈ l)
    (hg : ∀ b b', f b x = .ok b' → P b') {b b' : β} (hr : l.foldlM f b = .ok b') : P b' := by
  induction l generalizing b with
  | nil => cases hx
  | cons y l ih =>
    rw [List.foldlM_cons, Res.bind_eq_ok] at hr
    obtain ⟨b1, h1, h2⟩ := hr
    rcases List.mem_cons.1 hx with rfl | hx
    · exact foldlM_keeps (fun z hz => h z (List.mem_cons_of_mem _ hz)) (hg _ _ h1) h2
    · exact ih (fun z hz => h z (List.mem_cons_of_mem _ hz)) hx h2

theorem level_ok {name : Naming V} {alpha res : String} {solve : Config V → Nat → C × C} {c : Config V}
    {fs fs' : Files C} {l : Nat} : level name alpha res solve c fs l = .ok fs' ↔
      ∃ a, name c l alpha = .ok a ∧ ∃ r, name c l res = .ok r ∧
        fs' = write (write fs a (solve c l).1) r (solve c l).2 := by
  simp only [level, Res.bind_eq_ok, Res.pure_eq, Except.ok.injEq]
  exact exists_congr fun a => and_congr_right fun _ => exists_congr fun r => and_congr_right fun _ => eq_comm

/-- After the approximations of all configurations, each level of each of them is read as it was computed. -/
theorem C138_read {name : Naming V} {alpha res : String} {solve : Config V → Nat → C × C} {cs : List (Config V)}
    {fs fs' : Files C} (ha : Tells name cs alpha) (hr : Tells name cs res) (hap : Apart name alpha res)
    (hrun : allApproximations name alpha res solve fs cs = .ok fs') :
    ∀ c ∈ cs, ∀ l < c.nRef, load name alpha fs' c l = .ok (some (solve c l).1) ∧
      load name res fs' c l = .ok (some (solve c l).2) := by
  intro c hc l hl
  let P : Files C → Prop := fun g => ∃ a, name c l alpha = .ok a ∧ ∃ r, name c l res = .ok r ∧
    g a = some (solve c l).1 ∧ g r = some (solve c l).2
  have own : ∀ g g', level name alpha res solve c g l = .ok g' → P g' := by
    intro g g' h
    obtain ⟨a, h1, r, h2, rfl⟩ := level_ok.1 h
    have har : a ≠ r := fun e => hap c c l l a h1 (e ▸ h2)
    exact ⟨a, h1, r, h2, by simp [write, har], by simp [write]⟩
  have keep : ∀ c' ∈ cs, ∀ l' g g', P g → level name alpha res solve c' g l' = .ok g' → P g' := by
    intro c' hc' l' g g' hP h
    obtain ⟨a, h1, r, h2, e1, e2⟩ := hP
    obtain ⟨a', h1', r', h2', rfl⟩ := level_ok.1 h
    have n1 : a ≠ r' := fun e => hap c c' l l' a h1 (e ▸ h2')
    have n2 : r ≠ a' := fun e => hap c' c l' l a' h1' (e ▸ h2)
    refine ⟨a, h1, r, h2, ?_, ?_⟩
    · by_cases e : a = a'
      · obtain ⟨rfl, rfl⟩ := ha c hc c' hc' l l' a h1 (e ▸ h1')
        simp [write, e, show a' ≠ r' from e ▸ n1]
      · simp [write, e, n1, e1]
    · by_cases e : r = r'
      · obtain ⟨rfl, rfl⟩ := hr c hc c' hc' l l' r h2 (e ▸ h2')
        simp [write, e]
      · simp [write, e, n2, e2]
  have hP : P fs' := foldlM_gets (P := P) (f := approximations name alpha res solve)
    (fun c' hc' g g' hP h => foldlM_keeps (P := P) (fun l' _ => keep c' hc' l') hP h) hc
    (fun g g' h => foldlM_gets (P := P) (fun l' _ => keep c hc l') (List.mem_range.2 hl) own h) hrun
  obtain ⟨a, h1, r, h2, e1, e2⟩ := hP
  constructor
  · simp only [load, h1, Res.bind_ok, Res.pure_eq, e1]
  · simp only [load, h2, Res.bind_ok, Res.pure_eq, e2]

/-- If the name can be built for every configuration, the approximations end. -/
theorem C138_runs {name : Naming V} {alpha res : String} (solve : Config V → Nat → C × C) {cs : List (Config V)}
    (h : ∀ c ∈ cs, ∀ l < c.nRef, (∃ a, name c l alpha = .ok a) ∧ ∃ r, name c l res = .ok r) (fs : Files C) :
    ∃ fs', allApproximations name alpha res solve fs cs = .ok fs' := by
  have total : ∀ {α β : Type} (f : β → α → Res β) (l : List α), (∀ x ∈ l, ∀ b, ∃ b', f b x = .ok b') →
      ∀ b, ∃ b', l.foldlM f b = .ok b' := by
    intro α β f l
    induction l with
    | nil => exact fun _ b => ⟨b, rfl⟩
    | cons x l ih =>
      intro hf b
      obtain ⟨b1, h1⟩ := hf x List.mem_cons_self b
      obtain ⟨b2, h2⟩ := ih (fun y hy => hf y (List.mem_cons_of_mem _ hy)) b1
      exact ⟨b2, by rw [List.foldlM_cons, h1]; exact h2⟩
  refine total _ _ (fun c hc g => total _ _ (fun l hl g => ?_) g) fs
  obtain ⟨⟨a, h1⟩, r, h2⟩ := h c hc l (List.mem_range.1 hl)
  exact ⟨_, level_ok.2 ⟨a, h1, r, h2, rfl⟩⟩

/-- First Cauchy example: configurations that differ in method or Lamé parameter do not disturb each other. -/
theorem C138_main_one {str : V → String} (hs : Plain str) {solve : Config V → Nat → C × C} {cs : List (Config V)}
    (hcs : ∀ c ∈ cs, ∀ c' ∈ cs, c.method = c'.method →
      c.material.getItem "lambda" = c'.material.getItem "lambda" → c = c')
    (hl : ∀ c ∈ cs, ∃ v, c.material.getItem "lambda" = .ok v) (fs : Files C) :
    ∃ fs', allApproximations (cauchyOne str) "_alpha.npy" "_res_history.txt" solve fs cs = .ok fs' ∧
      ∀ c ∈ cs, ∀ l < c.nRef, load (cauchyOne str) "_alpha.npy" fs' c l = .ok (some (solve c l).1) ∧
        load (cauchyOne str) "_res_history.txt" fs' c l = .ok (some (solve c l).2) := by
  have tells : ∀ suffix, Tells (cauchyOne str) cs suffix := fun suffix c hc c' hc' l l' s h h' =>
    have e := C138_cauchy_one hs h h'
    ⟨hcs c hc c' hc' e.1 e.2.1, e.2.2⟩
  obtain ⟨fs', h⟩ := C138_runs (name := cauchyOne str) (alpha := "_alpha.npy") (res := "_res_history.txt") solve
    (cs := cs) (fun c hc l _ => by
      obtain ⟨v, hv⟩ := hl c hc
      exact ⟨⟨_, cauchyOne_ok.2 ⟨v, hv, rfl⟩⟩, ⟨_, cauchyOne_ok.2 ⟨v, hv, rfl⟩⟩⟩) fs
  exact ⟨fs', h, C138_read (tells _) (tells _) (C138_apart str).1 h⟩

/-- First Cosserat example: configurations that differ in method, a parameter, order or dimension do not disturb each
other. -/
theorem C138_main_cosserat {str : V → String} (hs : Plain str) {solve : Config V → Nat → C × C} {cs : List (Config V)}
    (hcs : ∀ c ∈ cs, ∀ c' ∈ cs, c.method = c'.method → (∃ v, Seven c v ∧ Seven c' v) →
      c.kOrder = c'.kOrder → c.dim = c'.dim → c = c')
    (hl : ∀ c ∈ cs, ∃ v, Seven c v) (fs : Files C) :
    ∃ fs', allApproximations (fun c l s => cosseratOne str c s (some l)) "_alpha_ex_1.npy" "_res_history_ex_1.txt"
        solve fs cs = .ok fs' ∧
      ∀ c ∈ cs, ∀ l < c.nRef,
        load (fun c l s => cosseratOne str c s (some l)) "_alpha_ex_1.npy" fs' c l = .ok (some (solve c l).1) ∧
        load (fun c l s => cosseratOne str c s (some l)) "_res_history_ex_1.txt" fs' c l
          = .ok (some (solve c l).2) := by
  have tells : ∀ suffix, Tells (fun c l s => cosseratOne str c s (some l)) cs suffix :=
    fun suffix c hc c' hc' l l' s h h' =>
      have e := C138_cosserat_one hs h h' rfl
      ⟨hcs c hc c' hc' e.1 e.2.1 e.2.2.1 e.2.2.2.1, Option.some.inj e.2.2.2.2⟩
  obtain ⟨fs', h⟩ := C138_runs (name := fun c l s => cosseratOne str c s (some l)) (alpha := "_alpha_ex_1.npy")
    (res := "_res_history_ex_1.txt") solve
    (cs := cs) (fun c hc l _ => by
      obtain ⟨v, hv⟩ := hl c hc
      exact ⟨⟨_, cosseratOne_ok.2 ⟨v, hv, rfl⟩⟩, ⟨_, cosseratOne_ok.2 ⟨v, hv, rfl⟩⟩⟩) fs
  exact ⟨fs', h, C138_read (tells _) (tells _) (C138_apart str).2.2.1 h⟩

/-- Nothing is read where nothing was written: the postprocessing alone fails. -/
theorem C138_missing {name : Naming V} {suffix s : String} {c : Config V} {l : Nat} (h : name c l suffix = .ok s) :
    load name suffix (fun _ => (none : Option C)) c l = .ok none := by
  simp only [load, h, Res.bind_ok, Res.pure_eq]

/-! ### Where the names fail -/

/-- The parameters of the second Cosserat example have no `lambda`: after the first solve no name can be built. -/
theorem C138_cosserat_two_violated (str : V → String) (num : String → V) (solve : Config V → Nat → C × C)
    (fs : Files C) (m : String) (k d n : Nat) :
    ∀ p ∈ casesTwo num, approximations (cosseratTwo str) "_alpha_ex_2.npy" "_res_history_ex_2.txt" solve fs
      ⟨m, k, d, n + 1, p⟩ = .error .keyError := by
  intro p hp
  have hp' := List.mem_singleton.1 hp
  subst hp'
  rw [approximations, List.range_succ_eq_map, List.foldlM_cons]
  rfl

/-- The order is not in the names of the Cauchy examples: a run with another order replaces the vectors of the first. -/
theorem C138_order_violated (str : V → String) (solve : Config V → Nat → C × C) (fs : Files C)
    (m : String) (d : Nat) (v : V) :
    let c : Nat → Config V := fun k => ⟨m, k, d, 1, [("lambda", v)]⟩
    ∃ fs', allApproximations (cauchyOne str) "_alpha.npy" "_res_history.txt" solve fs [c 0, c 1] = .ok fs' ∧
      load (cauchyOne str) "_alpha.npy" fs' (c 0) 0 = .ok (some (solve (c 1) 0).1) := by
  intro c
  have hn : ∀ k suffix, cauchyOne str (c k) 0 suffix
      = .ok ("ex_1_" ++ m ++ "_lambda_" ++ str v ++ "_l_" ++ toString 0 ++ suffix) := fun _ _ => rfl
  have hap := (C138_apart str).1 (c 1) (c 1) 0 0 _ (hn 1 _)
  have e : ∀ k (g : Files C), approximations (cauchyOne str) "_alpha.npy" "_res_history.txt" solve g (c k)
      = .ok (write (write g ("ex_1_" ++ m ++ "_lambda_" ++ str v ++ "_l_" ++ toString 0 ++ "_alpha.npy") (solve (c k) 0).1)
          ("ex_1_" ++ m ++ "_lambda_" ++ str v ++ "_l_" ++ toString 0 ++ "_res_history.txt") (solve (c k) 0).2) :=
    fun _ _ => rfl
  refine ⟨_, by rw [allApproximations, List.foldlM_cons, e, Res.bind_ok, List.foldlM_cons, e, Res.bind_ok,
    List.foldlM_nil]; rfl, ?_⟩
  rw [hn 1] at hap
  rw [load, hn 0, Res.bind_ok, Res.pure_eq]
  have hne := fun h => hap (congrArg Except.ok h).symm
  simp only [write, if_neg hne, if_true]

theorem pictures_last {name : Config V → Res String} {draw : Config V → Nat → C} {fs : Files C} {c : Config V} {s : String}
    (h : name c = .ok s) {n : Nat} (hn : c.nRef = n + 1) :
    ∃ fs', pictures name draw fs c = .ok fs' ∧ fs' s = some (draw c n) ∧ ∀ x ≠ s, fs' x = fs x := by
  have run : ∀ k, ∃ g, (List.range k).foldlM (fun (fs : Files C) l => do
      let file ← name c
      pure (write fs file (draw c l))) fs = Except.ok (ε := Err) g ∧ ∀ x ≠ s, g x = fs x := by
    intro k
    induction k with
    | zero => exact ⟨fs, rfl, fun _ _ => rfl⟩
    | succ k ih =>
      obtain ⟨g, hg, hk⟩ := ih
      refine ⟨write g s (draw c k), ?_, fun x hx => by simp only [write, if_neg hx]; exact hk x hx⟩
      rw [List.range_succ, List.foldlM_append, hg, Res.bind_ok, List.foldlM_cons, h, Res.bind_ok]
      rfl
  obtain ⟨g, hg, hk⟩ := run n
  refine ⟨write g s (draw c n), ?_, by simp [write], fun x hx => by simp only [write, if_neg hx]; exact hk x hx⟩
  rw [pictures, hn, List.range_succ, List.foldlM_append, hg, Res.bind_ok, List.foldlM_cons, h, Res.bind_ok]
  rfl

/-- The level is not in the names of the pictures: of all levels only the picture of the last is left. -/
theorem C138_pictures_violated (str : V → String) {draw : Config V → Nat → C} {c : Config V} {n : Nat}
    (hn : c.nRef = n + 1) {v : V} (hv : c.material.getItem "lambda" = .ok v) :
    ∃ fs', pictures (pictureOne str) draw (fun _ => none) c = .ok fs' ∧
      (∃ s, fs' s = some (draw c n)) ∧ ∀ s p, fs' s = some p → p = draw c n := by
  obtain ⟨fs', h, hs, ho⟩ := pictures_last (name := pictureOne str) (draw := draw) (fs := fun _ => none) (c := c)
    (s := "ex_1_" ++ c.method ++ "_lambda_" ++ str v ++ ".vtk") (by rw [pictureOne, hv]; rfl) hn
  refine ⟨fs', h, ⟨_, hs⟩, fun s p hp => ?_⟩
  by_cases e : s = "ex_1_" ++ c.method ++ "_lambda_" ++ str v ++ ".vtk"
  · rw [e, hs] at hp; exact (Option.some.inj hp).symm
  · rw [ho s e] at hp; exact absurd hp (by simp)

/-- The same in the first Cosserat example, whose pictures have the name without level. -/
theorem C138_pictures_cosserat_violated (str : V → String) {draw : Config V → Nat → C} {c : Config V} {n : Nat}
    (hn : c.nRef = n + 1) {v : Fin 7 → V} (hv : Seven c v) :
    ∃ fs', pictures (fun c => cosseratOne str c "_four_fields_ex_1.vtk" none) draw (fun _ => none) c = .ok fs' ∧
      (∃ s, fs' s = some (draw c n)) ∧ ∀ s p, fs' s = some p → p = draw c n := by
  obtain ⟨fs', h, hs, ho⟩ := pictures_last (name := fun c => cosseratOne str c "_four_fields_ex_1.vtk" none)
    (draw := draw) (fs := fun _ => none) (c := c)
    (s := chunks c.method (partsOne str c v none) ++ "_four_fields_ex_1.vtk") (cosseratOne_ok.2 ⟨v, hv, rfl⟩) hn
  refine ⟨fs', h, ⟨_, hs⟩, fun s p hp => ?_⟩
  by_cases e : s = chunks c.method (partsOne str c v none) ++ "_four_fields_ex_1.vtk"
  · rw [e, hs] at hp; exact (Option.some.inj hp).symm
  · rw [ho s e] at hp; exact absurd hp (by simp)

/-- The mantissa is not in the names of the results of finite volumes: parameters with one exponent share the files. -/
theorem C138_fv_violated {sci : V → String × Int} {v w : V} (h : (sci v).2 = (sci w).2) (m : String) (k d n : Nat) (suffix : String) :
    fvOne sci ⟨m, k, d, n, [("lambda", v)]⟩ suffix = fvOne sci ⟨m, k, d, n, [("lambda", w)]⟩ suffix ∧
    fvTwo sci ⟨m, k, d, n, [("kappa", v)]⟩ suffix = fvTwo sci ⟨m, k, d, n, [("kappa", w)]⟩ suffix := by
  have e : ∀ x : V, fvOne sci ⟨m, k, d, n, [("lambda", x)]⟩ suffix
      = .ok ("ex_1_" ++ m ++ "_lambda_" ++ "1e" ++ toString (sci x).2 ++ suffix) := fun _ => rfl
  have e2 : ∀ x : V, fvTwo sci ⟨m, k, d, n, [("kappa", x)]⟩ suffix
      = .ok ("ex_2_" ++ m ++ "_kappa_" ++ "1e" ++ toString (sci x).2 ++ suffix) := fun _ => rfl
  exact ⟨by rw [e, e, h], by rw [e2, e2, h]⟩

/-! ### Concrete names -/

/-- the configurations of the first Cauchy example, with the texts of the parameters for the parameters -/
def casesOne : List (Config Nat) :=
  [1, 100, 10000, 100000000].map fun v => ⟨"three_field_MFEM", 0, 2, 4, [("lambda", v), ("mu", 1)]⟩

example : (casesOne.map fun c => cauchyOne (fun n : Nat => toString n) c 3 "_alpha.npy") =
    [.ok "ex_1_three_field_MFEM_lambda_1_l_3_alpha.npy", .ok "ex_1_three_field_MFEM_lambda_100_l_3_alpha.npy",
      .ok "ex_1_three_field_MFEM_lambda_10000_l_3_alpha.npy",
      .ok "ex_1_three_field_MFEM_lambda_100000000_l_3_alpha.npy"] := rfl

example (solve : Config Nat → Nat → Nat × Nat) (fs : Files Nat) :
    ∃ fs', allApproximations (cauchyOne fun n : Nat => toString n) "_alpha.npy" "_res_history.txt" solve fs casesOne
      = .ok fs' ∧ ∀ c ∈ casesOne, ∀ l < 4,
        load (cauchyOne fun n : Nat => toString n) "_alpha.npy" fs' c l = .ok (some (solve c l).1) := by
  obtain ⟨fs', h, r⟩ := C138_main_one (cs := casesOne) nat_plain (solve := solve) (by
    intro c hc c' hc' _ h
    simp only [casesOne, List.map_cons, List.map_nil, List.mem_cons, List.not_mem_nil, or_false] at hc hc'
    rcases hc with rfl | rfl | rfl | rfl <;> rcases hc' with rfl | rfl | rfl | rfl <;>
      first | rfl | (exact absurd (Except.ok.inj h) (by decide))) (by
    intro c hc
    simp only [casesOne, List.map_cons, List.map_nil, List.mem_cons, List.not_mem_nil, or_false] at hc
    rcases hc with rfl | rfl | rfl | rfl <;> exact ⟨_, rfl⟩) fs
  refine ⟨fs', h, fun c hc l hl => (r c hc l ?_).1⟩
  simp only [casesOne, List.map_cons, List.map_nil, List.mem_cons, List.not_mem_nil, or_false] at hc
  rcases hc with rfl | rfl | rfl | rfl <;> exact hl

example : cosseratOne (fun n : Nat => toString n)
    ⟨"wc_rt", 1, 3, 2, [("lambda_s", 1), ("mu_s", 2), ("kappa_s", 3), ("lambda_o", 4), ("mu_o", 5), ("kappa_o", 6),
      ("l", 7)]⟩ "_alpha_ex_1.npy" (some 0)
    = .ok "wc_rt_lambda_s_1_mu_s_2_kappa_s_3_lambda_o_4_mu_p_5_kappa_o_6_lc_7_k1_l0_3d_alpha_ex_1.npy" := rfl

example : fvOne (fun n : Nat => (toString n, (n : Int) - 7)) ⟨"TPSA", 0, 2, 1, [("lambda", 1)]⟩ "_stress_0_1.npy"
    = .ok "ex_1_TPSA_lambda_1e-6_stress_0_1.npy" := rfl

/-- The only case of the second example has the same coefficients for stresses and couple stresses, as far as it
gives both. -/
theorem C138_case_two {V : Type} (num : String → V) : ∀ c ∈ casesTwo num,
    c.get? "kappa_s" = c.get? "kappa_o" ∧ c.get? "mu_s" = c.get? "mu_o" ∧ c.get? "kappa_s" = some (num "0.1") ∧
      c.get? "lambda_s" = some (num "1.0e4") ∧ c.get? "lambda_o" = some (num "1.0") := by
  intro c hc
  obtain rfl := List.mem_singleton.1 hc
  exact ⟨rfl, rfl, rfl, rfl, rfl⟩

#print axioms C138_cauchy_one
#print axioms C138_cauchy_two
#print axioms C138_cosserat_one
#print axioms C138_cosserat_level
#print axioms C138_cosserat_two
#print axioms C138_cosserat_three
#print axioms C138_ecmor
#print axioms C138_fv
#print axioms C138_fv_two
#print axioms C138_apart
#print axioms C138_read
#print axioms C138_runs
#print axioms C138_main_one
#print axioms C138_main_cosserat
#print axioms C138_missing
#print axioms C138_cosserat_two_violated
#print axioms C138_order_violated
#print axioms C138_pictures_violated
#print axioms C138_pictures_cosserat_violated
#print axioms C138_fv_violated

#print axioms C138_case_two

end Verif.FileNames
