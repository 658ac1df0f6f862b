/-
C151: the mixed-dimensional drivers give every file of every run a name of its own, as far as the name tells the run.
-/
import Mathlib.Tactic.IntervalCases
import Mathlib.Tactic.NormNum
import Verif.Spec.CaseNames
import Verif.Lemmas.Prelude
import Verif.Props.FileNames

namespace Verif.CaseNames

open FileNames (chunks chunks_inj nat_text nat_inj append_left_inj' plain_cons plain_nil not_mem_append)

variable {V : Type}

/-! ### Names as parts with underscores between them -/

theorem count_chunks {l : List String} (hl : ∀ x ∈ l, '_' ∉ x.toList) (a : String) :
    (chunks a l).toList.count '_' = a.toList.count '_' + l.length := by
  induction l generalizing a with
  | nil => rfl
  | cons x l ih =>
    show (chunks (a ++ "_" ++ x) l).toList.count '_' = _
    rw [ih (fun z hz => hl z (List.mem_cons_of_mem _ hz))]
    have hx : x.toList.count '_' = 0 := List.count_eq_zero.2 (hl x List.mem_cons_self)
    simp only [String.toList_append, List.count_append, hx, List.length_cons]
    have : "_".toList.count '_' = 1 := by decide
    omega

theorem chunks_left {a : String} {l m : List String} (hl : ∀ x ∈ l, '_' ∉ x.toList)
    (hm : ∀ x ∈ m, '_' ∉ x.toList) (h : chunks a l = chunks a m) : l = m := by
  refine (chunks_inj ?_ hl hm h).2
  have h1 := count_chunks hl a
  have h2 := count_chunks hm a
  rw [h] at h1
  omega

theorem chunks_append (a : String) (l m : List String) : chunks a (l ++ m) = chunks (chunks a l) m :=
  List.foldl_append

/-- the parts of a name, without the last underscore -/
def parts (str : V → String) (coDim : Nat) (values : List V) : List String :=
  ["c", toString coDim, "material", "parameters"] ++ values.map str

theorem named_chunks (str : V → String) (method : String) (coDim : Nat) (values : List V) :
    named str method coDim values = chunks method (parts str coDim values) ++ "_" := by
  have key : ∀ (vs : List V) (a : String),
      vs.foldl (fun name v => name ++ str v ++ "_") (a ++ "_") = chunks a (vs.map str) ++ "_" := by
    intro vs
    induction vs with
    | nil => intro a; rfl
    | cons v vs ih =>
      intro a
      show List.foldl _ (a ++ "_" ++ str v ++ "_") vs = _
      rw [ih]
      rfl
  rw [named, parts, chunks_append, ← key]
  congr 1
  exact String.toList_inj.1 (by simp [chunks, String.toList_append])

theorem parts_plain {str : V → String} (hs : Clear str) (coDim : Nat) (values : List V) :
    ∀ x ∈ parts str coDim values, '_' ∉ x.toList := by
  refine plain_cons (by decide) (plain_cons (nat_text _) (plain_cons (by decide) (plain_cons (by decide) ?_)))
  intro x hx
  obtain ⟨v, -, rfl⟩ := List.mem_map.1 hx
  exact hs.2 v

/-- the parts of a suffix -/
inductive Kind (V : Type) where
  | normal | enhanced | plot
  | picture (h : V)
  | physical (h : V)

def Kind.parts (str : V → String) : Kind V → List String
  | .normal => ["normal", "conv", "data.txt"]
  | .enhanced => ["enhanced", "conv", "data.txt"]
  | .plot => ["l2", "error", "plot.png"]
  | .picture h => ["mesh", "size", str h, "md", "elliptic", "two", "fields.vtk"]
  | .physical h => ["mesh", "size", str h, "md", "elliptic", "physical", "two", "fields.vtk"]

def Kind.suffix (str : V → String) : Kind V → String
  | .normal => "normal_conv_data.txt"
  | .enhanced => "enhanced_conv_data.txt"
  | .plot => "l2_error_plot.png"
  | .picture h => "mesh_size_" ++ str h ++ "_md_elliptic_two_fields.vtk"
  | .physical h => "mesh_size_" ++ str h ++ "_md_elliptic_physical_two_fields.vtk"

def kinds (degenerate : Bool) (hs : List V) : List (Kind V) :=
  hs.flatMap (fun h => .picture h :: if degenerate then [.physical h] else []) ++ [.normal, .enhanced, .plot]

theorem suffixes_eq (str : V → String) (degenerate : Bool) (hs : List V) :
    hs.flatMap (meshSuffixes str degenerate) ++ tableSuffixes = (kinds degenerate hs).map (Kind.suffix str) := by
  rw [kinds, List.map_append, List.map_flatMap]
  congr 1
  refine congrArg (fun f => List.flatMap f hs) (funext fun h => ?_)
  cases degenerate <;> rfl

theorem kind_plain {str : V → String} (hs : Clear str) (k : Kind V) : ∀ x ∈ k.parts str, '_' ∉ x.toList := by
  cases k with
  | normal =>
    show ∀ x ∈ ["normal", "conv", "data.txt"], '_' ∉ x.toList
    decide
  | enhanced =>
    show ∀ x ∈ ["enhanced", "conv", "data.txt"], '_' ∉ x.toList
    decide
  | plot =>
    show ∀ x ∈ ["l2", "error", "plot.png"], '_' ∉ x.toList
    decide
  | picture h =>
    exact plain_cons (by decide) (plain_cons (by decide) (plain_cons (hs.2 h) (by decide)))
  | physical h =>
    exact plain_cons (by decide) (plain_cons (by decide) (plain_cons (hs.2 h) (by decide)))

theorem kind_inj {str : V → String} (hs : Clear str) {k k' : Kind V} (h : k.parts str = k'.parts str) : k = k' := by
  cases k <;> cases k' <;> simp [Kind.parts] at h ⊢ <;> exact hs.1 _ _ h

theorem file_chunks (str : V → String) (coDim : Nat) (values : List V) (k : Kind V) :
    named str "mixed_rt" coDim values ++ k.suffix str
      = chunks "mixed_rt" (parts str coDim values ++ k.parts str) := by
  rw [named_chunks, chunks_append]
  generalize chunks "mixed_rt" (parts str coDim values) = a
  cases k <;> exact String.toList_inj.1 (by simp [chunks, Kind.suffix, Kind.parts, String.toList_append])

theorem inFolder_inj {f : Option String} {a b : String} (h : inFolder f a = inFolder f b) : a = b := by
  cases f with
  | none => exact h
  | some f => exact append_left_inj' h

theorem inFolder_append (f : Option String) (a b : String) : inFolder f a ++ b = inFolder f (a ++ b) := by
  cases f with
  | none => rfl
  | some f => simp only [inFolder, String.append_assoc]

/-! ### The names -/

/-- The degenerate driver gives names exactly when the dictionary has ten values without `beta` or eleven with it;
else unpacking raises `ValueError`. -/
theorem C151_unpacked (str : V → String) (c : Config V) :
    degenerateNames methodNames str c =
      if c.material.length = (if (c.material.get? "beta").isSome then 11 else 10)
      then .ok (loop methodNames str c c.material.values) else .error .valueError := by
  rw [degenerateNames.eq_def]
  have hl : c.material.values.length = c.material.length := by simp [Dict.values]
  rw [hl]
  cases c.material.get? "beta" <;> rfl

/-- There is exactly one name for each co-dimension, at its index. -/
theorem C151_by_co_dim (str : V → String) (c : Config V) (values : List V) :
    loop methodNames str c values
      = [inFolder c.folder (named str "mixed_rt" 0 values), inFolder c.folder (named str "mixed_rt" 1 values)] := rfl

/-- The names tell the co-dimension and the values of the parameters, whatever their number. -/
theorem C151_tells {str : V → String} (hs : Clear str) {c c' : Config V} (hf : c.folder = c'.folder)
    {values values' : List V} {i j : Nat} {n : String}
    (h : getIdx (loop methodNames str c values) i = .ok n)
    (h' : getIdx (loop methodNames str c' values') j = .ok n) : i = j ∧ values = values' := by
  have key : ∀ (c : Config V) (vs : List V) (i : Nat), getIdx (loop methodNames str c vs) i = .ok n →
      i < 2 ∧ n = inFolder c.folder (named str "mixed_rt" i vs) := by
    intro c vs i h
    match i with
    | 0 => injection h with h; exact ⟨by omega, h.symm⟩
    | 1 => injection h with h; exact ⟨by omega, h.symm⟩
    | i + 2 => cases h
  obtain ⟨hi, e⟩ := key c values i h
  obtain ⟨hj, e'⟩ := key c' values' j h'
  rw [e, ← hf] at e'
  have e' := inFolder_inj e'
  rw [named_chunks, named_chunks] at e'
  have e' := chunks_left (parts_plain hs _ _) (parts_plain hs _ _) (FileNames.append_right_inj' e')
  simp only [parts, List.cons_append, List.nil_append, List.cons.injEq, true_and] at e'
  refine ⟨nat_inj e'.1, ?_⟩
  exact List.map_injective_iff.2 (fun v w => hs.1 v w) e'.2

/-! ### The files -/

/-- the names of the files of one run -/
def runFiles (str : V → String) (degenerate : Bool) (folder : Option String) (meshes values : List V) : List String :=
  [0, 1].flatMap fun co => (kinds degenerate meshes).map fun k =>
    inFolder folder (chunks "mixed_rt" (parts str co values ++ k.parts str))

theorem files_eq (str : V → String) (degenerate : Bool) (c : Config V) (values : List V) :
    files str degenerate c (loop methodNames str c values)
      = .ok (runFiles str degenerate c.folder c.meshSizes values) := by
  rw [C151_by_co_dim]
  show Except.ok _ = _
  refine congrArg Except.ok ?_
  rw [suffixes_eq, runFiles]
  simp only [List.flatMap_cons, List.flatMap_nil, List.map_map, List.append_nil]
  congr 1 <;>
  · refine List.map_congr_left fun k _ => ?_
    show inFolder _ _ ++ _ = _
    rw [inFolder_append, file_chunks]

theorem kinds_nodup {degenerate : Bool} {hs : List V} (hn : hs.Nodup) : (kinds degenerate hs).Nodup := by
  rw [kinds, List.nodup_append]
  refine ⟨?_, by simp, ?_⟩
  · rw [List.nodup_flatMap]
    refine ⟨fun h _ => by cases degenerate <;> simp, ?_⟩
    refine hn.imp ?_
    intro a b hab x hx hy
    cases degenerate <;> simp at hx hy
    · subst hx; injection hy with hy; exact hab hy
    · rcases hx with rfl | rfl
      · simp at hy; exact hab hy
      · simp at hy; exact hab hy
  · intro a ha b hb hab
    subst hab
    simp only [List.mem_flatMap] at ha
    obtain ⟨h, -, ha⟩ := ha
    cases degenerate <;> simp at ha hb
    · subst ha; simp at hb
    · rcases ha with rfl | rfl <;> simp at hb

theorem file_inj {str : V → String} (hs : Clear str) {f : Option String} {co co' : Nat} {vs vs' : List V}
    (hl : vs.length = vs'.length) {k k' : Kind V}
    (h : inFolder f (chunks "mixed_rt" (parts str co vs ++ k.parts str))
      = inFolder f (chunks "mixed_rt" (parts str co' vs' ++ k'.parts str))) : co = co' ∧ vs = vs' ∧ k = k' := by
  have hp : ∀ (co : Nat) (vs : List V) (k : Kind V), ∀ x ∈ parts str co vs ++ k.parts str, '_' ∉ x.toList := by
    intro co vs k x hx
    rcases List.mem_append.1 hx with hx | hx
    · exact parts_plain hs _ _ x hx
    · exact kind_plain hs k x hx
  have e := chunks_left (hp _ _ _) (hp _ _ _) (inFolder_inj h)
  have hlen : (parts str co vs).length = (parts str co' vs').length := by simp [parts, hl]
  obtain ⟨e1, e2⟩ := List.append_inj e hlen
  simp only [parts, List.cons_append, List.nil_append, List.cons.injEq, true_and] at e1
  exact ⟨nat_inj e1.1, List.map_injective_iff.2 (fun v w => hs.1 v w) e1.2, kind_inj hs e2⟩

/-- One run: no file is written twice when the mesh sizes differ. -/
theorem C151_once {str : V → String} (hs : Clear str) {degenerate : Bool} {c : Config V} (hn : c.meshSizes.Nodup)
    {values : List V} {fs : List String}
    (h : files str degenerate c (loop methodNames str c values) = .ok fs) : fs.Nodup := by
  rw [files_eq] at h
  injection h with h
  subst h
  rw [runFiles, List.nodup_flatMap]
  constructor
  · intro co _
    refine List.Nodup.map ?_ (kinds_nodup hn)
    intro k k' e
    exact (file_inj hs rfl e).2.2
  · refine (by decide : ([0, 1] : List Nat).Nodup).imp ?_
    intro a b hab x hx hy
    obtain ⟨k, -, rfl⟩ := List.mem_map.1 hx
    obtain ⟨k', -, e⟩ := List.mem_map.1 hy
    exact hab (file_inj hs rfl e).1.symm

/-- Two runs in one folder with equally many parameters write a common file only when all parameters agree. -/
theorem C151_apart {str : V → String} (hs : Clear str) {degenerate degenerate' : Bool} {c c' : Config V}
    (hf : c.folder = c'.folder) {values values' : List V} (hl : values.length = values'.length)
    {fs fs' : List String} (h : files str degenerate c (loop methodNames str c values) = .ok fs)
    (h' : files str degenerate' c' (loop methodNames str c' values') = .ok fs') {n : String} (hn : n ∈ fs)
    (hn' : n ∈ fs') : values = values' := by
  rw [files_eq] at h h'
  injection h with h
  injection h' with h'
  subst h h'
  rw [runFiles, List.mem_flatMap] at hn hn'
  obtain ⟨co, -, hn⟩ := hn
  obtain ⟨co', -, hn'⟩ := hn'
  obtain ⟨k, -, rfl⟩ := List.mem_map.1 hn
  obtain ⟨k', -, e⟩ := List.mem_map.1 hn'
  rw [← hf] at e
  exact (file_inj hs hl e.symm).2.1

theorem separate_of {names : Config V → Res (List String)} {str : V → String} (hs : Clear str) {degenerate : Bool}
    {runs : List (Config V)} (vals : Config V → List V) {n : Nat} {folder : Option String}
    (h : ∀ c ∈ runs, names c = .ok (loop methodNames str c (vals c)) ∧ (vals c).length = n ∧ c.folder = folder ∧
      c.meshSizes.Nodup) (hd : (runs.map vals).Nodup) : Separate names str degenerate runs := by
  refine ⟨runs.map fun c => runFiles str degenerate c.folder c.meshSizes (vals c), ?_, ?_⟩
  · rw [List.forall₂_map_right_iff, List.forall₂_same]
    exact fun c hc => ⟨_, (h c hc).1, files_eq _ _ _ _⟩
  · rw [List.nodup_flatten]
    constructor
    · intro l hl
      obtain ⟨c, hc, rfl⟩ := List.mem_map.1 hl
      exact C151_once hs (h c hc).2.2.2 (files_eq _ _ _ _)
    · rw [List.pairwise_map]
      have hd' := List.pairwise_map.1 hd
      refine List.Pairwise.imp_of_mem ?_ hd'
      intro a b ha hb hab x hx hy
      exact hab (C151_apart hs ((h a ha).2.2.1.trans (h b hb).2.2.1.symm) ((h a ha).2.1.trans (h b hb).2.1.symm)
        (files_eq _ _ _ _) (files_eq _ _ _ _) hx hy)

/-- The twenty runs of the degenerate driver write all their files apart. -/
theorem C151_degenerate_runs {str : ℚ → String} (hs : Clear str) :
    Separate (degenerateNames methodNames str) str true degenerateRuns := by
  refine separate_of hs (fun c => c.material.values) (n := 11) (folder := some "output") ?_ (by decide +kernel)
  intro c hc
  have hb : (c.material.get? "beta").isSome = true ∧ c.material.length = 11 ∧ c.folder = some "output" ∧
      c.meshSizes.Nodup := by
    revert c
    decide +kernel
  rw [C151_unpacked, if_pos (by rw [hb.1, hb.2.1]; rfl)]
  exact ⟨rfl, by simp [Dict.values, hb.2.1], hb.2.2⟩

/-- So do the five runs without degeneracy. -/
theorem C151_plain_runs {str : ℚ → String} (hs : Clear str) :
    Separate (degenerateNames methodNames str) str true plainRuns := by
  refine separate_of hs (fun c => c.material.values) (n := 10) (folder := some "output") ?_ (by decide +kernel)
  intro c hc
  have hb : (c.material.get? "beta").isSome = false ∧ c.material.length = 10 ∧ c.folder = some "output" ∧
      c.meshSizes.Nodup := by
    revert c
    decide +kernel
  rw [C151_unpacked, if_pos (by rw [hb.1, hb.2.1]; rfl)]
  exact ⟨rfl, by simp [Dict.values, hb.2.1], hb.2.2⟩

/-- And the five runs of the driver without degenerate coefficients. -/
theorem C151_elliptic_runs {str : ℚ → String} (hs : Clear str) :
    Separate (ellipticNames methodNames str) str false ellipticRuns := by
  refine separate_of hs (fun c => c.material.values) (n := 6) (folder := some "output") ?_ (by decide +kernel)
  intro c hc
  have hb : c.material.length = 6 ∧ c.folder = some "output" ∧ c.meshSizes.Nodup := by
    revert c
    decide +kernel
  refine ⟨?_, by simp [Dict.values, hb.1], hb.2⟩
  obtain ⟨d, -, rfl⟩ := List.mem_map.1 hc
  rfl

/-- The elliptic driver takes its values by their keys: the order of the entries does not matter, and every missing
key raises `KeyError`. -/
theorem C151_by_key (str : V → String) (c : Config V) :
    ellipticNames methodNames str c = .error .keyError ∨
      ∃ values, values.map Except.ok = ["m_c1", "m_c2", "m_kappa_c0", "m_kappa_c1", "m_kappa_normal", "m_delta"].map
        c.material.getItem ∧ ellipticNames methodNames str c = .ok (loop methodNames str c values) := by
  have key : ∀ k, c.material.getItem k = .error .keyError ∨ ∃ v, c.material.getItem k = .ok v := by
    intro k
    rw [Dict.getItem.eq_def]
    cases c.material.get? k with
    | none => exact Or.inl rfl
    | some v => exact Or.inr ⟨v, rfl⟩
  rw [ellipticNames]
  rcases key "m_c1" with h1 | ⟨v1, h1⟩
  · left; rw [h1]; rfl
  rcases key "m_c2" with h2 | ⟨v2, h2⟩
  · left; rw [h1, h2]; rfl
  rcases key "m_kappa_c0" with h3 | ⟨v3, h3⟩
  · left; rw [h1, h2, h3]; rfl
  rcases key "m_kappa_c1" with h4 | ⟨v4, h4⟩
  · left; rw [h1, h2, h3, h4]; rfl
  rcases key "m_kappa_normal" with h5 | ⟨v5, h5⟩
  · left; rw [h1, h2, h3, h4, h5]; rfl
  rcases key "m_delta" with h6 | ⟨v6, h6⟩
  · left; rw [h1, h2, h3, h4, h5, h6]; rfl
  · right
    refine ⟨[v1, v2, v3, v4, v5, v6], ?_, ?_⟩
    · simp only [List.map_cons, List.map_nil, h1, h2, h3, h4, h5, h6]
    · rw [h1, h2, h3, h4, h5, h6]; rfl

/-! ### What the names do not tell -/

/-- The order of the spaces is not in the name: runs of two orders write the same files. -/
theorem C151_order_violated (str : V → String) (c : Config V) (k : Nat) :
    degenerateNames methodNames str { c with kOrder := k } = degenerateNames methodNames str c ∧
      ellipticNames methodNames str { c with kOrder := k } = ellipticNames methodNames str c := ⟨rfl, rfl⟩

/-- The degenerate driver takes the values in the order of the entries: two materials with different `rho_1` and
`rho_2` get the same names. -/
theorem C151_keys_violated :
    ∃ c c' : Config ℚ, c.material.get? "rho_1" ≠ c'.material.get? "rho_1" ∧ c.material.get? "rho_2" ≠ c'.material.get? "rho_2" ∧
      (∀ str, ∃ ns, degenerateNames methodNames str c = .ok ns ∧ degenerateNames methodNames str c' = .ok ns) :=
  ⟨⟨0, plainMaterial 1, none, []⟩,
    ⟨0, ("rho_2", 1 / 10) :: ("rho_1", 1 / 50) :: (plainMaterial 1).drop 2, none, []⟩,
    by decide +kernel, by decide +kernel, fun _ => ⟨_, rfl, rfl⟩⟩

/-- With a second method the name at index 1 is one of co-dimension 0. -/
theorem C151_methods_violated (str : V → String) (c : Config V) (values : List V) :
    getIdx (loop (fun _ _ => ["mixed_rt", "mixed_bdm"]) str c values) 1
      = .ok (inFolder c.folder (named str "mixed_bdm" 0 values)) := rfl

/-- A name of the degenerate driver. -/
example : (degenerateNames methodNames (fun n : Nat => toString n)
      ⟨0, [("rho_1", 1), ("rho_2", 2), ("kappa_c0", 3), ("kappa_c1", 4), ("mu", 5), ("kappa_normal", 6), ("delta", 7),
        ("xi", 8), ("eta", 9), ("chi", 10), ("beta", 11)], some "output", []⟩).toOption
    = some ["output/mixed_rt_c_0_material_parameters_1_2_3_4_5_6_7_8_9_10_11_",
        "output/mixed_rt_c_1_material_parameters_1_2_3_4_5_6_7_8_9_10_11_"] := by decide +kernel

/-- Texts that are clear exist. -/
example : Clear (fun n : Nat => toString n) := ⟨fun _ _ h => nat_inj h, nat_text⟩

example : degenerateRuns.length = 20 ∧ plainRuns.length = 5 ∧ ellipticRuns.length = 5 := by decide +kernel

/-- The values of the parameter are the powers of one tenth, from the first to the fifth. -/
theorem C151_deltas : deltas.length = 5 ∧ ∀ i, i < 5 → deltas[i]? = some ((1 / 10) ^ (i + 1)) := by
  refine ⟨rfl, fun i h => ?_⟩
  interval_cases i <;> simp [deltas] <;> norm_num

#print axioms C151_unpacked
#print axioms C151_by_co_dim
#print axioms C151_tells
#print axioms C151_once
#print axioms C151_apart
#print axioms C151_degenerate_runs
#print axioms C151_plain_runs
#print axioms C151_elliptic_runs
#print axioms C151_by_key
#print axioms C151_order_violated
#print axioms C151_keys_violated
#print axioms C151_methods_violated

#print axioms C151_deltas

end Verif.CaseNames
