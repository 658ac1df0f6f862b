/-
Property theorems C147: every curve of the error plots shows its own table.
-/
import Verif.Spec.ErrorPlots
import Verif.Model.FileNames
import Verif.Lemmas.Trace

namespace Verif.ErrorPlots
open MeshGraph Trace Assembly

variable {V : Type}

theorem select_eq (p : Painter) (dir : Dir V) (m v : String) :
    select p dir m v = match dir.filter fun f => globbed p.ending f.1 && inName (p.filter m v) f.1 with
      | [f] => .ok f.2
      | [] => .error .assertionError
      | _ :: _ :: _ => .error .assertionError := by
  rw [select, List.filter_filter]
  simp only [Bool.and_comm]
  generalize dir.filter _ = l
  rcases l with _ | ⟨a, _ | _⟩ <;> rfl

/-- A file is selected exactly if it is the only table of errors with the filter in its name; everything else ends in
`AssertionError`. -/
theorem C147_select (p : Painter) (dir : Dir V) (m v : String) :
    (∀ rows, select p dir m v = .ok rows ↔
      ∃ name, dir.filter (fun f => globbed p.ending f.1 && inName (p.filter m v) f.1) = [(name, rows)]) ∧
    ((dir.filter fun f => globbed p.ending f.1 && inName (p.filter m v) f.1).length ≠ 1 ↔
      select p dir m v = .error .assertionError) := by
  rw [select_eq]
  generalize dir.filter (fun f => globbed p.ending f.1 && inName (p.filter m v) f.1) = l
  match l with
  | [] => simp
  | [f] =>
    constructor
    · intro rows
      constructor
      · intro h; exact ⟨f.1, by rw [← Except.ok.inj h]⟩
      · rintro ⟨n, h⟩; rw [(List.cons.inj h).1]
    · simp
  | _ :: _ :: _ => simp

example : select cauchyOne [("ex_1_TH_FEM_lambda_1.0_error.txt", [[1]]), ("ex_1_FEM_lambda_1.0_error.txt", [[2]])] "1_FEM" "1.0"
    = .ok [[2]] := by rfl

/-- The names of the drivers: for every method and value of a figure there is one table of errors. -/
theorem hits : ∀ s ∈ subjects, ∀ m ∈ s.figure.methods, ∀ v ∈ s.figure.values,
    s.files.filter (fun n => globbed s.figure.painter.ending n && inName (s.figure.painter.filter m v) n) = [s.own m v] := by
  decide +kernel

theorem filled_filter {s : Subject} (hs : s ∈ subjects) {dir : Dir V} (hd : s.Filled dir) {m v : String}
    (hm : m ∈ s.figure.methods) (hv : v ∈ s.figure.values) :
    ∃ rows, dir.filter (fun f => globbed s.figure.painter.ending f.1 && inName (s.figure.painter.filter m v) f.1)
      = [(s.own m v, rows)] := by
  obtain ⟨others, hp, ho⟩ := hd
  have h1 := hp.filter fun n => globbed s.figure.painter.ending n && inName (s.figure.painter.filter m v) n
  rw [List.filter_append, hits s hs m hm v hv] at h1
  have h2 : others.filter (fun n => globbed s.figure.painter.ending n && inName (s.figure.painter.filter m v) n) = [] := by
    rw [List.filter_eq_nil_iff]
    intro n hn
    rw [ho n hn]; simp
  rw [h2, List.append_nil, List.perm_singleton, List.filter_map] at h1
  match hl : dir.filter (fun f => globbed s.figure.painter.ending f.1 && inName (s.figure.painter.filter m v) f.1) with
  | [] => 
    have : dir.filter ((fun n => globbed s.figure.painter.ending n && inName (s.figure.painter.filter m v) n) ∘ Prod.fst) = [] := hl
    rw [this] at h1; simp at h1
  | [f] =>
    have : dir.filter ((fun n => globbed s.figure.painter.ending n && inName (s.figure.painter.filter m v) n) ∘ Prod.fst) = [f] := hl
    rw [this] at h1
    exact ⟨f.2, by rw [← (List.cons.inj h1).1]; exact hl⟩
  | f :: g :: t =>
    have : dir.filter ((fun n => globbed s.figure.painter.ending n && inName (s.figure.painter.filter m v) n) ∘ Prod.fst)
      = f :: g :: t := hl
    rw [this] at h1
    simp at h1

/-- In the directory of the drivers, whatever its order and whatever other files there are, every curve is read from the
table of errors of its method and value. -/
theorem C147_own {s : Subject} (hs : s ∈ subjects) {dir : Dir V} (hd : s.Filled dir) {m v : String}
    (hm : m ∈ s.figure.methods) (hv : v ∈ s.figure.values) :
    ∃ rows, (s.own m v, rows) ∈ dir ∧ select s.figure.painter dir m v = .ok rows ∧
      ∀ rows', (s.own m v, rows') ∈ dir → rows' = rows := by
  obtain ⟨rows, h⟩ := filled_filter hs hd hm hv
  refine ⟨rows, ?_, ((C147_select _ _ _ _).1 rows).2 ⟨_, h⟩, ?_⟩
  · have : (s.own m v, rows) ∈ dir.filter (fun f => globbed s.figure.painter.ending f.1 &&
        inName (s.figure.painter.filter m v) f.1) := by rw [h]; exact List.mem_singleton.2 rfl
    exact (List.mem_filter.1 this).1
  · intro rows' h'
    have hq : (s.own m v, rows) ∈ dir.filter (fun f => globbed s.figure.painter.ending f.1 &&
        inName (s.figure.painter.filter m v) f.1) := by rw [h]; exact List.mem_singleton.2 rfl
    have : (s.own m v, rows') ∈ dir.filter (fun f => globbed s.figure.painter.ending f.1 &&
        inName (s.figure.painter.filter m v) f.1) := List.mem_filter.2 ⟨h', (List.mem_filter.1 hq).2⟩
    rw [h] at this
    exact (Prod.mk.inj (List.mem_singleton.1 this)).2

/-- The directories exist: for every figure, the files of its drivers. -/
example (s : Subject) : s.Filled (s.files.map fun n => (n, ([] : List (List Nat)))) :=
  ⟨[], by simp [Function.comp_def], by simp⟩

example : cauchyFigureOne ∈ subjects.map Subject.figure := by simp [subjects]

/-- Different curves of a figure have different files. -/
theorem C147_apart : ∀ s ∈ subjects,
    (s.figure.methods.flatMap fun m => s.figure.values.map fun v => s.own m v).Nodup := by
  decide +kernel

/-- The columns are those of the mesh size and of the quantities that the figure is about. -/
theorem C147_columns : ∀ s ∈ subjects, ∀ m ∈ s.figure.methods,
    (s.figure.painter.size m).toOption.map ((s.header m)[·]?) = some (some "h") ∧
    (s.figure.painter.columns.getItem (m ++ "_" ++ s.figure.kind)).toOption.map (·.map ((s.header m)[·]?))
      = some (s.wanted.map some) ∧ (s.header m).Nodup := by
  decide +kernel

/-- Every label, style and colour is there. -/
theorem C147_labels : ∀ s ∈ subjects, ∀ m ∈ s.figure.methods, ∀ v ∈ s.figure.values,
    (s.figure.painter.titles.getItem m).toOption.isSome = true ∧ (s.figure.painter.colors.getItem m).toOption.isSome = true ∧
    (s.figure.painter.label v).toOption.isSome = true ∧ (s.figure.painter.style m v).toOption.isSome = true := by
  decide +kernel

theorem insets_drawn : ∀ s ∈ subjects, ∀ p ∈ s.figure.insets, p.1 ∈ s.figure.methods ∧ p.2 ∈ s.figure.values := by
  decide +kernel

theorem mapRes_exists {α β : Type} {f : α → Res β} {P : α → β → Prop} : ∀ {l : List α},
    (∀ a ∈ l, ∃ b, f a = .ok b ∧ P a b) → ∃ r, mapRes f l = .ok r ∧ List.Forall₂ P l r
  | [], _ => ⟨[], rfl, .nil⟩
  | a :: l, h => by
    obtain ⟨b, hb, hP⟩ := h a (by simp)
    obtain ⟨r, hr, hF⟩ := mapRes_exists (l := l) fun x hx => h x (by simp [hx])
    exact ⟨b :: r, by rw [mapRes, hb, hr]; rfl, .cons hP hF⟩

theorem ok_of_some {α : Type} {x : Res α} (h : x.toOption.isSome = true) : ∃ a, x = .ok a := by
  cases x with
  | ok a => exact ⟨a, rfl⟩
  | error e => simp [Except.toOption] at h

theorem map_ok {α β : Type} {x : Res α} {f : α → β} {b : β} (h : x.toOption.map f = some b) : ∃ a, x = .ok a ∧ f a = b := by
  cases x with
  | ok a => exact ⟨a, rfl, by simpa [Except.toOption] using h⟩
  | error e => simp [Except.toOption] at h

theorem under_of {header : List String} {row : List V} (hn : header.Nodup) (hl : row.length = header.length) {i : Nat}
    {name : String} (h : header[i]? = some name) : ∃ e, row[i]? = some e ∧ under header row name = some e := by
  obtain ⟨hi, he⟩ := List.getElem?_eq_some_iff.1 h
  refine ⟨row[i]'(by omega), List.getElem?_eq_getElem _, ?_⟩
  rw [under, ← he, hn.idxOf_getElem i hi]
  exact List.getElem?_eq_getElem _

theorem fancy_under {header : List String} {row : List V} (hn : header.Nodup) (hl : row.length = header.length) :
    ∀ {idxs : List Nat} {wanted : List String}, idxs.map (header[·]?) = wanted.map some →
    ∃ es, fancy row idxs = .ok es ∧ List.Forall₂ (fun name e => under header row name = some e) wanted es
  | [], [], _ => ⟨[], rfl, .nil⟩
  | i :: is, w :: ws, h => by
    simp only [List.map_cons, List.cons.injEq] at h
    obtain ⟨e, he, hu⟩ := under_of hn hl h.1
    obtain ⟨es, hes, hF⟩ := fancy_under hn hl (idxs := is) (wanted := ws) h.2
    refine ⟨e :: es, ?_, .cons hu hF⟩
    rw [fancy] at hes ⊢
    rw [mapRes, hes, getIdx, he]
    rfl
  | [], _ :: _, h => by simp at h
  | _ :: _, [], h => by simp at h

theorem points_shows [Zero V] [Add V] {header wanted : List String} {rows : List (List V)} {h : Nat} {idxs : List Nat}
    (hn : header.Nodup) (h2 : 2 ≤ rows.length) (hl : ∀ row ∈ rows, row.length = header.length)
    (hh : header[h]? = some "h") (hi : idxs.map (header[·]?) = wanted.map some) :
    ∃ data, points rows h idxs = .ok data ∧ Shows header wanted rows data := by
  have ht : twoAxes rows = .ok rows := by
    match rows, h2 with
    | a :: b :: t, _ => rfl
  rw [points, ht]
  exact mapRes_exists fun row hr => by
    obtain ⟨e, he, hu⟩ := under_of hn (hl row hr) hh
    obtain ⟨es, hes, hF⟩ := fancy_under hn (hl row hr) hi
    refine ⟨(e, es.sum), ?_, hu, es, hF, rfl⟩
    rw [getIdx, he, hes]
    rfl

/-- The tables of errors in a directory are those of a run: at least two levels, and as many columns as the driver
writes. -/
def Subject.Regular (s : Subject) (dir : Dir V) : Prop :=
  ∀ m ∈ s.figure.methods, ∀ v ∈ s.figure.values, ∀ rows, (s.own m v, rows) ∈ dir →
    2 ≤ rows.length ∧ ∀ row ∈ rows, row.length = (s.header m).length

/-- What a curve has to be -/
def Subject.Right [Zero V] [Add V] (s : Subject) (dir : Dir V) (mv : String × String) (data : List (V × V)) : Prop :=
  ∃ rows, (s.own mv.1 mv.2, rows) ∈ dir ∧ Shows (s.header mv.1) s.wanted rows data

theorem curve_right [Zero V] [Add V] {s : Subject} (hs : s ∈ subjects) {dir : Dir V} (hd : s.Filled dir)
    (hr : s.Regular dir) {m v : String} (hm : m ∈ s.figure.methods) (hv : v ∈ s.figure.values) :
    ∃ c : Curve V, curve s.figure.painter dir s.figure.kind m v = .ok c ∧ s.Right dir (m, v) c.data ∧
      s.figure.painter.titles.getItem m = .ok c.title ∧ s.figure.painter.colors.getItem m = .ok c.color ∧
      s.figure.painter.label v = .ok c.parameter ∧ s.figure.painter.style m v = .ok c.style ∧
      inset s.figure.painter dir s.figure.kind m v = .ok c.data := by
  obtain ⟨rows, hrows, hsel, -⟩ := C147_own hs hd hm hv
  obtain ⟨h2, hl⟩ := hr m hm v hv rows hrows
  obtain ⟨hc1, hc2, hn⟩ := C147_columns s hs m hm
  obtain ⟨h, hh, hh'⟩ := map_ok hc1
  obtain ⟨idxs, hi, hi'⟩ := map_ok hc2
  obtain ⟨ht, hc, hlb, hst⟩ := C147_labels s hs m hm v hv
  obtain ⟨t, ht⟩ := ok_of_some ht
  obtain ⟨c, hc⟩ := ok_of_some hc
  obtain ⟨lb, hlb⟩ := ok_of_some hlb
  obtain ⟨st, hst⟩ := ok_of_some hst
  obtain ⟨data, hp, hsh⟩ := points_shows hn h2 hl hh' hi'
  refine ⟨⟨t, lb, st, c, data⟩, ?_, ⟨rows, hrows, hsh⟩, ht, hc, hlb, hst, ?_⟩
  · rw [curve, hsel, ht, hlb, hst, hc, hi, hh]
    simp only [bind, Except.bind, hp]
    rfl
  · rw [inset, hsel, hi, hh]
    exact hp

/-- Every figure is drawn from the files of its drivers: one curve for every method and value, each with the mesh sizes
and the sums of the wanted columns of its own table and with the labels of its method and value, and the triangles start
from curves of the figure. -/
theorem C147_drawn [Zero V] [Add V] {s : Subject} (hs : s ∈ subjects) {dir : Dir V} (hd : s.Filled dir)
    (hr : s.Regular dir) : ∃ cs ts, render s.figure dir = .ok (cs, ts) ∧
      List.Forall₂ (fun mv c => s.Right dir mv c.data ∧
        s.figure.painter.titles.getItem mv.1 = .ok c.title ∧ s.figure.painter.colors.getItem mv.1 = .ok c.color ∧
        s.figure.painter.label mv.2 = .ok c.parameter ∧ s.figure.painter.style mv.1 mv.2 = .ok c.style)
        (s.figure.methods.flatMap fun m => s.figure.values.map fun v => (m, v)) cs ∧
      List.Forall₂ (fun mv t => s.Right dir mv t ∧ ∃ c ∈ cs, t = c.data) s.figure.insets ts := by
  have hmem : ∀ mv : String × String, mv ∈ (s.figure.methods.flatMap fun m => s.figure.values.map fun v => (m, v)) ↔
      mv.1 ∈ s.figure.methods ∧ mv.2 ∈ s.figure.values := by
    intro mv; constructor
    · intro h
      obtain ⟨m, hm, h⟩ := List.mem_flatMap.1 h
      obtain ⟨v, hv, rfl⟩ := List.mem_map.1 h
      exact ⟨hm, hv⟩
    · rintro ⟨hm, hv⟩
      exact List.mem_flatMap.2 ⟨mv.1, hm, List.mem_map.2 ⟨mv.2, hv, rfl⟩⟩
  obtain ⟨cs, hcs, hF⟩ := mapRes_exists (f := fun mv : String × String => curve s.figure.painter dir s.figure.kind mv.1 mv.2)
    (P := fun mv c => curve s.figure.painter dir s.figure.kind mv.1 mv.2 = .ok c ∧ s.Right dir mv c.data ∧
        s.figure.painter.titles.getItem mv.1 = .ok c.title ∧ s.figure.painter.colors.getItem mv.1 = .ok c.color ∧
        s.figure.painter.label mv.2 = .ok c.parameter ∧ s.figure.painter.style mv.1 mv.2 = .ok c.style)
    (l := s.figure.methods.flatMap fun m => s.figure.values.map fun v => (m, v)) (by
      intro mv hmv
      obtain ⟨hm, hv⟩ := (hmem mv).1 hmv
      obtain ⟨c, h1, h2, h3, h4, h5, h6, -⟩ := curve_right hs hd hr hm hv
      exact ⟨c, h1, h1, h2, h3, h4, h5, h6⟩)
  obtain ⟨ts, hts, hG⟩ := mapRes_exists (f := fun mv : String × String => inset s.figure.painter dir s.figure.kind mv.1 mv.2)
    (P := fun mv t => s.Right dir mv t ∧ ∃ c ∈ cs, t = c.data) (l := s.figure.insets) (by
      intro mv hmv
      obtain ⟨hm, hv⟩ := insets_drawn s hs mv hmv
      obtain ⟨c, h1, h2, -, -, -, -, h7⟩ := curve_right hs hd hr hm hv
      refine ⟨c.data, h7, h2, c, ?_, rfl⟩
      have hin := (hmem mv).2 ⟨hm, hv⟩
      rw [mapRes_iff] at hcs
      obtain ⟨i, hi, hget⟩ := List.getElem_of_mem hin
      have hlen := hcs.length_eq
      have := (List.forall₂_iff_get.1 hcs).2 i hi (by omega)
      simp only [List.get_eq_getElem, hget] at this
      rw [h1] at this
      rw [Except.ok.inj this]
      exact List.getElem_mem _)
  refine ⟨cs, ts, ?_, hF.imp fun _ _ h => h.2, hG⟩
  rw [render, curves, hcs]
  simp only [bind, Except.bind, hts]
  rfl

/-- Directories as in the theorem exist. -/
example : ∃ s ∈ subjects, ∃ dir : Dir Nat, s.Filled dir ∧ s.Regular dir := by
  refine ⟨subjects[9], List.getElem_mem _, subjects[9].files.map fun n => (n, [List.replicate 13 1, List.replicate 13 2]),
    ⟨[], by simp [Function.comp_def], by simp⟩, ?_⟩
  intro m _ v _ rows h
  obtain ⟨n, _, h⟩ := List.mem_map.1 h
  rw [← (Prod.mk.inj h).2]
  exact ⟨le_rfl, by intro row hr; simp at hr; rcases hr with rfl | rfl <;> rfl⟩

/-- A table with a single level cannot be drawn: it is read as an array with one axis. -/
theorem C147_single_violated [Zero V] [Add V] {s : Subject} (hs : s ∈ subjects) {dir : Dir V} (hd : s.Filled dir)
    {m v : String} (hm : m ∈ s.figure.methods) (hv : v ∈ s.figure.values) {rows : List (List V)}
    (hrows : (s.own m v, rows) ∈ dir) (h1 : rows.length ≤ 1) :
    curve s.figure.painter dir s.figure.kind m v = .error .indexError := by
  obtain ⟨rows', -, hsel, hu⟩ := C147_own hs hd hm hv
  rw [← hu rows hrows] at hsel
  obtain ⟨hc1, hc2, -⟩ := C147_columns s hs m hm
  obtain ⟨h, hh, -⟩ := map_ok hc1
  obtain ⟨idxs, hi, -⟩ := map_ok hc2
  obtain ⟨ht, hc, hlb, hst⟩ := C147_labels s hs m hm v hv
  obtain ⟨t, ht⟩ := ok_of_some ht
  obtain ⟨c, hc⟩ := ok_of_some hc
  obtain ⟨lb, hlb⟩ := ok_of_some hlb
  obtain ⟨st, hst⟩ := ok_of_some hst
  have hp : points rows h idxs = .error .indexError := by
    match rows, h1 with
    | [], _ => rfl
    | [_], _ => rfl
  rw [curve, hsel, ht, hlb, hst, hc, hi, hh]
  simp only [bind, Except.bind, hp]

/-- The legend of a figure whose curves have the given labels: every method once, with its colour, then every value once,
with its line style, in the order of the lists. -/
theorem C147_legend : ∀ s ∈ subjects,
    let cs := s.figure.methods.flatMap fun m => s.figure.values.map fun v =>
      (⟨((s.figure.painter.titles.getItem m).toOption).getD "", ((s.figure.painter.label v).toOption).getD none,
        ((s.figure.painter.style m v).toOption).getD "", ((s.figure.painter.colors.getItem m).toOption).getD "", []⟩ : Curve Nat)
    (legend cs).1 = s.figure.methods.map (fun m => (((s.figure.painter.titles.getItem m).toOption).getD "",
      ((s.figure.painter.colors.getItem m).toOption).getD "")) ∧
    (legend cs).2 = (s.figure.values.filterMap fun v => (((s.figure.painter.label v).toOption).getD none).map fun t =>
      (t, ((s.figure.painter.style (s.figure.methods.headD "") v).toOption).getD "")) ∧
    ((legend cs).1.map Prod.fst).Nodup ∧ ((legend cs).1.map Prod.snd).Nodup ∧ ((legend cs).2.map Prod.fst).Nodup ∧
    ((legend cs).2.map Prod.snd).Nodup := by
  decide +kernel

theorem containsSub_append (a b c : List Char) : containsSub b (a ++ b ++ c) = true := by
  induction a with
  | nil =>
    cases h : b ++ c with
    | nil =>
      obtain ⟨rfl, rfl⟩ := List.append_eq_nil_iff.1 h
      rfl
    | cons x t =>
      rw [List.nil_append, h, containsSub, ← h]
      simp
  | cons x a ih =>
    show containsSub b (x :: (a ++ b ++ c)) = true
    rw [containsSub, ih]; simp

/-- The filter is looked for anywhere in the names: if the text of a value begins like that of another one (as 1.05 does
like 1.0) and there are tables for both, the first one cannot be drawn. -/
theorem C147_prefix_violated {dir : Dir V} {m v w : String} {r r' : List (List V)} (hw : w ≠ "")
    (h : ("ex_1_" ++ m ++ "_lambda_" ++ v ++ "_error.txt", r) ∈ dir)
    (h' : ("ex_1_" ++ m ++ "_lambda_" ++ (v ++ w) ++ "_error.txt", r') ∈ dir) :
    select cauchyOne dir m v = .error .assertionError := by
  refine (C147_select cauchyOne dir m v).2.1 fun h1 => ?_
  obtain ⟨f, hf⟩ := List.length_eq_one_iff.1 h1
  have hit : ∀ (t : String) (q : List (List V)), ("ex_1_" ++ m ++ "_lambda_" ++ v ++ t ++ "_error.txt", q) ∈ dir →
      ("ex_1_" ++ m ++ "_lambda_" ++ v ++ t ++ "_error.txt", q) = f := by
    intro t q hq
    have : ("ex_1_" ++ m ++ "_lambda_" ++ v ++ t ++ "_error.txt", q) ∈ [f] := by
      rw [← hf]
      refine List.mem_filter.2 ⟨hq, ?_⟩
      rw [Bool.and_eq_true]
      constructor
      · simp only [globbed, cauchyOne, List.isSuffixOf_iff_suffix, String.toList_append]
        exact List.suffix_append _ _
      · have := containsSub_append "ex_1_".toList (m ++ "_lambda_" ++ v).toList (t ++ "_error.txt").toList
        simp only [inName, cauchyOne]
        rw [← this]
        simp only [String.toList_append, List.append_assoc]
    exact List.mem_singleton.1 this
  have e1 := hit "" r (by simpa using h)
  have e2 := hit w r' (by simpa [String.append_assoc] using h')
  have := congrArg String.toList (Prod.mk.inj (e1.trans e2.symm)).1
  simp only [String.toList_append, List.append_cancel_left_eq, List.append_cancel_right_eq] at this
  apply hw
  have h3 : w.toList = [] := by
    simpa using this
  exact String.toList_inj.1 (h3.trans (by rfl))

example : ("1.0" ++ "5" : String) = "1.05" ∧ ("5" : String) ≠ "" := by decide

/-- Why the scripts say "1_FEM": the name of the driver, "FEM", is in the names of all three methods. -/
theorem C147_plain_name :
    (cauchyFilesOne.filter fun n => globbed cauchyOne.ending n && inName (cauchyOne.filter "FEM" "1.0") n).length = 3 ∧
    (cauchyFilesOne.filter fun n => globbed cauchyOne.ending n && inName (cauchyOne.filter "1_FEM" "1.0") n)
      = ["ex_1_FEM_lambda_1.0_error.txt"] := by
  decide +kernel

theorem noFile : ∀ n ∈ cosseratFilesOne, inName (cosseratFilter 0 3 "wc_rt" "1.0") n = false := by decide +kernel

/-- The first figure of the Cosserat script cannot be drawn from the files of its driver, which has one method and one
material: already the first curve finds no file. -/
theorem C147_cosserat_one_violated [Zero V] [Add V] {dir : Dir V} (hd : (dir.map Prod.fst).Perm cosseratFilesOne) :
    ∀ f ∈ cosseratFiguresOne 3, render f dir = .error .assertionError := by
  have hn : ∀ n ∈ cosseratFilesOne, inName (cosseratFilter 0 3 "wc_rt" "1.0") n = false := noFile
  have hsel : select (cosseratOne 0 3) dir "wc_rt" "1.0" = .error .assertionError := by
    refine (C147_select _ _ _ _).2.1 ?_
    rw [List.filter_eq_nil_iff.2]
    · simp
    · intro f hf
      have : f.1 ∈ cosseratFilesOne := hd.mem_iff.1 (List.mem_map.2 ⟨f, hf, rfl⟩)
      show ¬ ((globbed _ f.1 && inName (cosseratFilter 0 3 "wc_rt" "1.0") f.1) = true)
      rw [hn f.1 this]; simp
  intro f hf
  simp only [cosseratFiguresOne, List.mem_cons, List.not_mem_nil, or_false] at hf
  rcases hf with rfl | rfl
  · simp only [render, curves, List.flatMap_cons, List.map_cons, List.cons_append, mapRes, curve, hsel, bind, Except.bind]
  · simp only [render, curves, List.flatMap_cons, List.map_cons, List.cons_append, mapRes, curve, hsel, bind, Except.bind]

example : ((cosseratFilesOne.map fun n => (n, ([] : List (List Nat)))).map Prod.fst).Perm cosseratFilesOne := by
  simp [Function.comp_def]

/-- Its filter is the name that the driver gives: what is missing are the runs. -/
theorem C147_cosserat_one_name {W : Type} {str : W → String} (c : FileNames.Config W) (suffix : String) {one tenth lc : W}
    (hm : c.material = [("lambda_s", one), ("mu_s", one), ("kappa_s", tenth), ("lambda_o", one), ("mu_o", one),
      ("kappa_o", tenth), ("l", lc)]) (h1 : str one = "1.0") (h2 : str tenth = "0.1") :
    FileNames.cosseratOne str c suffix none = .ok (cosseratFilter c.kOrder c.dim c.method (str lc) ++ suffix) := by
  have g1 : c.material.getItem "lambda_s" = .ok one := by rw [hm]; rfl
  have g2 : c.material.getItem "mu_s" = .ok one := by rw [hm]; rfl
  have g3 : c.material.getItem "kappa_s" = .ok tenth := by rw [hm]; rfl
  have g4 : c.material.getItem "lambda_o" = .ok one := by rw [hm]; rfl
  have g5 : c.material.getItem "mu_o" = .ok one := by rw [hm]; rfl
  have g6 : c.material.getItem "kappa_o" = .ok tenth := by rw [hm]; rfl
  have g7 : c.material.getItem "l" = .ok lc := by rw [hm]; rfl
  unfold FileNames.cosseratOne cosseratFilter
  simp only [g1, g2, g3, g4, g5, g6, g7, h1, h2, bind, Except.bind, pure, Except.pure]

/-- The second figure of the Cosserat script cannot be drawn at all: the filter is called with keywords that it does not
have. -/
theorem C147_cosserat_two_violated {m v : String} {methods values : List String} :
    canvasTwo (m :: methods) (v :: values) = .error .typeError ∧ callKeywords filterParameters keywordsOne = .ok () := by
  constructor
  · rfl
  · rfl

#print axioms C147_select
#print axioms C147_own
#print axioms C147_apart
#print axioms C147_columns
#print axioms C147_labels
#print axioms C147_drawn
#print axioms C147_single_violated
#print axioms C147_legend
#print axioms C147_prefix_violated
#print axioms C147_plain_name
#print axioms C147_cosserat_one_violated
#print axioms C147_cosserat_one_name
#print axioms C147_cosserat_two_violated

end Verif.ErrorPlots
