import Verif.Spec.Csv
import Verif.Proof.XmlTags

set_option linter.unusedSimpArgs false

namespace Mdf

/-- The field is complete with this text. -/
def CsvAt (t : Bytes) (row : List Bytes) (rows : List (List Bytes)) (s : CsvSt) : Prop :=
  s.mode ≠ .quoted ∧ s.field = t ∧ s.row = row ∧ s.rows = rows

/-- A cell that is read as a text. -/
def CellOf (d : Byte) (t e : Bytes) : Prop :=
  ∀ row rows, ∃ s, e.foldlM (csvStep d) (⟨.start, [], row, rows⟩ : CsvSt) = some s ∧ CsvAt t row rows s

theorem plain_go (d : Byte) (e : Bytes) (h1 : 0x22#8 ∉ e) (h2 : d ∉ e) (h3 : 0x0A#8 ∉ e) (f : Bytes) (row : List Bytes)
    (rows : List (List Bytes)) : e.foldlM (csvStep d) (⟨.plain, f, row, rows⟩ : CsvSt) = some ⟨.plain, f ++ e, row, rows⟩ := by
  induction e generalizing f with
  | nil => simp
  | cons c e ih =>
    have hq : ¬ c = 0x22#8 := fun h => h1 (by simp [h])
    have hd : ¬ c = d := fun h => h2 (by simp [h])
    have hn : ¬ c = 0x0A#8 := fun h => h3 (by simp [h])
    rw [List.foldlM_cons]
    have : csvStep d ⟨.plain, f, row, rows⟩ c = some ⟨.plain, f ++ [c], row, rows⟩ := by
      simp [csvStep, csvInside, hq, hd, hn]
    rw [this]
    simp only [Option.bind_eq_bind, Option.bind_some]
    rw [ih (fun h => h1 (by simp [h])) (fun h => h2 (by simp [h])) (fun h => h3 (by simp [h]))]
    simp

theorem cell_plain (d : Byte) (e : Bytes) (h1 : 0x22#8 ∉ e) (h2 : d ∉ e) (h3 : 0x0A#8 ∉ e) : CellOf d e e := by
  intro row rows
  cases e with
  | nil => exact ⟨_, rfl, by simp [CsvAt]⟩
  | cons c e =>
    have hq : ¬ c = 0x22#8 := fun h => h1 (by simp [h])
    have hd : ¬ c = d := fun h => h2 (by simp [h])
    have hn : ¬ c = 0x0A#8 := fun h => h3 (by simp [h])
    have hs : csvStep d ⟨.start, [], row, rows⟩ c = some ⟨.plain, [c], row, rows⟩ := by
      simp [csvStep, csvInside, hq, hd, hn]
    refine ⟨⟨.plain, [c] ++ e, row, rows⟩, ?_, by simp [CsvAt]⟩
    rw [List.foldlM_cons, hs]
    simp only [Option.bind_eq_bind, Option.bind_some]
    exact plain_go d e (fun h => h1 (by simp [h])) (fun h => h2 (by simp [h])) (fun h => h3 (by simp [h])) _ _ _

theorem quoted_go (d : Byte) (hdq : d ≠ 0x22#8) (t : Bytes) (f : Bytes) (row : List Bytes) (rows : List (List Bytes)) :
    (csvDouble t).foldlM (csvStep d) (⟨.quoted, f, row, rows⟩ : CsvSt) = some ⟨.quoted, f ++ t, row, rows⟩ := by
  induction t generalizing f with
  | nil => simp [csvDouble]
  | cons c t ih =>
    by_cases hq : c = 0x22#8
    · subst hq
      have e : csvDouble (0x22#8 :: t) = 0x22#8 :: 0x22#8 :: csvDouble t := by simp [csvDouble, bQuote]
      have h1 : csvStep d ⟨.quoted, f, row, rows⟩ 0x22#8 = some ⟨.closed, f, row, rows⟩ := by simp [csvStep, csvInside]
      have h2 : csvStep d ⟨.closed, f, row, rows⟩ 0x22#8 = some ⟨.quoted, f ++ [0x22#8], row, rows⟩ := by
        simp [csvStep, csvInside, Ne.symm hdq]
      rw [e, List.foldlM_cons, h1]
      simp only [Option.bind_eq_bind, Option.bind_some]
      rw [List.foldlM_cons, h2]
      simp only [Option.bind_eq_bind, Option.bind_some]
      rw [ih]; simp
    · have e : csvDouble (c :: t) = c :: csvDouble t := by simp [csvDouble, bQuote, hq]
      have h1 : csvStep d ⟨.quoted, f, row, rows⟩ c = some ⟨.quoted, f ++ [c], row, rows⟩ := by simp [csvStep, csvInside, hq]
      rw [e, List.foldlM_cons, h1]
      simp only [Option.bind_eq_bind, Option.bind_some]
      rw [ih]; simp

theorem cell_quoted (d : Byte) (hdq : d ≠ 0x22#8) (t : Bytes) : CellOf d t (0x22#8 :: csvDouble t ++ [0x22#8]) := by
  intro row rows
  have h0 : csvStep d ⟨.start, [], row, rows⟩ 0x22#8 = some ⟨.quoted, [], row, rows⟩ := by
    simp [csvStep, csvInside, Ne.symm hdq]
  have h1 : csvStep d ⟨.quoted, [] ++ t, row, rows⟩ 0x22#8 = some ⟨.closed, t, row, rows⟩ := by simp [csvStep, csvInside]
  refine ⟨⟨.closed, t, row, rows⟩, ?_, by simp [CsvAt]⟩
  rw [List.cons_append, List.foldlM_cons, h0]
  simp only [Option.bind_eq_bind, Option.bind_some]
  rw [List.foldlM_append, quoted_go d hdq]
  simp only [Option.bind_eq_bind, Option.bind_some]
  rw [List.foldlM_cons, h1]
  simp

theorem csvDouble_id (t : Bytes) (h : 0x22#8 ∉ t) : csvDouble t = t := by
  induction t with
  | nil => rfl
  | cons c t ih =>
    have : ¬ c = 0x22#8 := fun e => h (by simp [e])
    simp [csvDouble, bQuote, this, ih (fun e => h (by simp [e]))]

theorem at_delim {d : Byte} {t : Bytes} {row : List Bytes} {rows : List (List Bytes)} {s : CsvSt} (h : CsvAt t row rows s) :
    csvStep d s d = some ⟨.start, [], row ++ [t], rows⟩ := by
  obtain ⟨h1, h2, h3, h4⟩ := h
  simp [csvStep, h1, h2, h3, h4]

theorem at_line {d : Byte} (hd : d ≠ 0x0A#8) {t : Bytes} {row : List Bytes} {rows : List (List Bytes)} {s : CsvSt} (h : CsvAt t row rows s) :
    csvStep d s 0x0A#8 = some ⟨.start, [], [], rows ++ [row ++ [t]]⟩ := by
  obtain ⟨h1, h2, h3, h4⟩ := h
  simp [csvStep, h1, h2, h3, h4, Ne.symm hd]

/-- A cell and a delimiter. -/
theorem cell_delim {d : Byte} {t e : Bytes} (h : CellOf d t e) (row : List Bytes) (rows : List (List Bytes)) :
    (e ++ [d]).foldlM (csvStep d) (⟨.start, [], row, rows⟩ : CsvSt) = some ⟨.start, [], row ++ [t], rows⟩ := by
  obtain ⟨s, hs, ha⟩ := h row rows
  rw [List.foldlM_append, hs]
  simp only [Option.bind_eq_bind, Option.bind_some]
  rw [List.foldlM_cons, at_delim ha]
  simp

/-- A cell and the end of the line. -/
theorem cell_line {d : Byte} (hd : d ≠ 0x0A#8) {t e : Bytes} (h : CellOf d t e) (row : List Bytes) (rows : List (List Bytes)) :
    (e ++ [0x0A#8]).foldlM (csvStep d) (⟨.start, [], row, rows⟩ : CsvSt) = some ⟨.start, [], [], rows ++ [row ++ [t]]⟩ := by
  obtain ⟨s, hs, ha⟩ := h row rows
  rw [List.foldlM_append, hs]
  simp only [Option.bind_eq_bind, Option.bind_some]
  rw [List.foldlM_cons, at_line hd ha]
  simp

/-! ## mdf2csv -/

/-- A line of cells. -/
theorem cells_line {d : Byte} (hd : d ≠ 0x0A#8) {α : Type} (text cell : α → Bytes) (l : List α) (hl : l ≠ [])
    (h : ∀ o ∈ l, CellOf d (text o) (cell o)) (row : List Bytes) (rows : List (List Bytes)) :
    (csvCells d (l.map cell) ++ [0x0A#8]).foldlM (csvStep d) (⟨.start, [], row, rows⟩ : CsvSt) =
      some ⟨.start, [], [], rows ++ [row ++ l.map text]⟩ := by
  induction l generalizing row with
  | nil => exact absurd rfl hl
  | cons o l ih =>
    cases l with
    | nil => exact cell_line hd (h o (by simp)) row rows
    | cons o' l =>
      have e : csvCells d ((o :: o' :: l).map cell) ++ [0x0A#8] = (cell o ++ [d]) ++ (csvCells d ((o' :: l).map cell) ++ [0x0A#8]) := by
        simp [csvCells]
      rw [e, List.foldlM_append, cell_delim (h o (by simp))]
      simp only [Option.bind_eq_bind, Option.bind_some]
      rw [ih (by simp) (fun x hx => h x (by simp [hx]))]
      simp

theorem lines_go {d : Byte} {α : Type} (is : List α) (f : α → Bytes) (r : α → List Bytes)
    (h : ∀ i ∈ is, ∀ rows, (f i).foldlM (csvStep d) (⟨.start, [], [], rows⟩ : CsvSt) = some ⟨.start, [], [], rows ++ [r i]⟩)
    (rows : List (List Bytes)) :
    (is.flatMap f).foldlM (csvStep d) (⟨.start, [], [], rows⟩ : CsvSt) = some ⟨.start, [], [], rows ++ is.map r⟩ := by
  induction is generalizing rows with
  | nil => simp
  | cons i is ih =>
    rw [List.flatMap_cons, List.foldlM_append, h i (by simp)]
    simp only [Option.bind_eq_bind, Option.bind_some]
    rw [ih (fun x hx => h x (by simp [hx]))]; simp

theorem csvLabel_title (n u : Bytes) : csvLabel n u = columnTitle n u := by
  unfold csvLabel columnTitle
  by_cases h : u = [] <;> simp [h]

theorem headCell_of {d : Byte} (hd : d ≠ 0x22#8) (o : CsvObs) (hn : 0x22#8 ∉ o.name) (hu : 0x22#8 ∉ o.unit) :
    CellOf d (columnTitle o.name o.unit) (csvHeadCell o) := by
  have hq : 0x22#8 ∉ columnTitle o.name o.unit := by
    unfold columnTitle
    by_cases h : o.unit = [] <;> simp [h, hn, hu]
  have := cell_quoted d hd (columnTitle o.name o.unit)
  rw [csvDouble_id _ hq] at this
  simpa [csvHeadCell, csvLabel_title, bQuote] using this

theorem cell_of {d : Byte} (hd : d ≠ 0x22#8) (i : Nat) (o : CsvObs) (hv : 0x22#8 ∉ sampleText o i) :
    CellOf d (sampleText o i) (csvCell d i o) := by
  unfold csvCell
  by_cases hva : (o.value i).1 = true
  · have e : sampleText o i = (o.value i).2 := by simp [sampleText, hva]
    rw [if_pos hva]
    rw [e] at hv ⊢
    unfold csvText
    by_cases hc : (o.value i).2.any (fun c => c == bQuote || c == d || isSpace c) = true
    · rw [if_pos hc]
      have := cell_quoted d hd (o.value i).2
      rw [csvDouble_id _ hv] at this
      simpa [bQuote] using this
    · rw [if_neg hc]
      refine cell_plain d _ hv ?_ ?_
      · intro h
        exact hc (List.any_eq_true.2 ⟨d, h, by simp⟩)
      · intro h
        exact hc (List.any_eq_true.2 ⟨_, h, by simp [isSpace]⟩)
  · rw [if_neg hva]
    have e : sampleText o i = [] := by simp [sampleText, hva]
    rw [e]
    exact cell_plain d [] (by simp) (by simp) (by simp)

theorem file_read {d : Byte} (hd : d ≠ 0x22#8) (hn : d ≠ 0x0A#8) (n : Nat) (l : List CsvObs) (hl : l ≠ [])
    (h : ∀ o ∈ l, 0x22#8 ∉ o.name ∧ 0x22#8 ∉ o.unit ∧ ∀ i < n, 0x22#8 ∉ sampleText o i) :
    csvRead d (csvFile d n l) = some (channelTable l n) := by
  have hh := cells_line hn (fun o => columnTitle o.name o.unit) csvHeadCell l hl (fun o ho => headCell_of hd o (h o ho).1 (h o ho).2.1) [] []
  have hr := lines_go (d := d) (List.range n) (fun i => csvCells d (l.map (csvCell d i)) ++ [0x0A#8]) (fun i => l.map fun o => sampleText o i)
    (fun i hi rows => by
      have := cells_line hn (fun o => sampleText o i) (csvCell d i) l hl
        (fun o ho => cell_of hd i o ((h o ho).2.2 i (List.mem_range.1 hi))) [] rows
      simpa using this)
  unfold csvRead csvFile
  rw [show (({} : CsvSt)) = ⟨.start, [], [], []⟩ from rfl, show bLine = 0x0A#8 from rfl, List.foldlM_append, hh]
  simp only [Option.bind_eq_bind, Option.bind_some]
  rw [hr]
  simp [csvFinish, channelTable]

/-! ## The viewer -/

theorem special_spec (c : Byte) : csvSpecial c = true ↔ c = 0x2C#8 ∨ c ≤ 0x20#8 ∨ 0x7F#8 ≤ c := by
  have h : ∀ x : Fin 256, csvSpecial (BitVec.ofFin x) = true ↔
      (BitVec.ofFin x : BitVec 8) = 0x2C#8 ∨ (BitVec.ofFin x : BitVec 8) ≤ 0x20#8 ∨ 0x7F#8 ≤ (BitVec.ofFin x : BitVec 8) := by
    decide +kernel
  exact h c.toFin

theorem any_double (t : Bytes) : (csvDouble t).any csvSpecial = t.any csvSpecial := by
  induction t with
  | nil => rfl
  | cons c t ih =>
    by_cases hq : c = 0x22#8
    · subst hq
      simp [csvDouble, bQuote, ih, show csvSpecial 0x22#8 = false from by decide]
    · simp [csvDouble, bQuote, hq, ih]

theorem plot_cell (t : Bytes) (h : PlotText t) : CellOf 0x2C#8 t (csvDitto (csvDouble t)) := by
  unfold csvDitto
  by_cases hs : (csvDouble t).any csvSpecial = true
  · rw [if_pos hs]
    exact cell_quoted _ (by decide) t
  · rw [if_neg hs]
    rw [any_double] at hs
    have hno : ∀ c ∈ t, ¬ csvSpecial c = true := fun c hc hh => hs (List.any_eq_true.2 ⟨c, hc, hh⟩)
    have hq : 0x22#8 ∉ t := by
      rcases h with h | ⟨c, hc, h⟩
      · exact h
      · exact absurd ((special_spec c).2 h) (hno c hc)
    rw [csvDouble_id _ hq]
    refine cell_plain _ _ hq ?_ ?_
    · exact fun h => hno _ h (by decide)
    · exact fun h => hno _ h (by decide)

/-- The reader after the output of the writer, when the table is `t`. -/
def PlotInv (w : CsvW) (t : CsvTab) : Prop :=
  w.rows = t.done.length ∧ w.cols = t.cur.length ∧ w.width = t.width ∧
  ∃ s, w.out.foldlM (csvStep 0x2C#8) ({} : CsvSt) = some s ∧ (t.cur = [] → s = ⟨.start, [], [], t.done⟩) ∧
    ∀ l x, t.cur = l ++ [x] → CsvAt x l t.done s

theorem snoc_of_ne {α : Type} (l : List α) (h : l ≠ []) : ∃ a x, l = a ++ [x] := by
  induction l with
  | nil => exact absurd rfl h
  | cons y l ih =>
    by_cases hl : l = []
    · exact ⟨[], y, by simp [hl]⟩
    · obtain ⟨a, x, e⟩ := ih hl
      exact ⟨y :: a, x, by simp [e]⟩

theorem plot_save {w : CsvW} {t : CsvTab} (h : PlotInv w t) (v : Bytes) (hv : PlotText v) :
    (w.save v).rows = t.done.length ∧ (w.save v).cols = (t.cur ++ [v]).length ∧ (w.save v).width = t.width ∧
    ∃ s, (w.save v).out.foldlM (csvStep 0x2C#8) ({} : CsvSt) = some s ∧ CsvAt v t.cur t.done s := by
  obtain ⟨h1, h2, h3, s, hs, hm0, hm1⟩ := h
  refine ⟨h1, by simp [CsvW.save, h2], h3, ?_⟩
  by_cases hc : t.cur = []
  · have h0 : ¬ w.cols > 0 := by rw [h2, hc]; simp
    obtain ⟨s', hs', ha⟩ := plot_cell v hv [] t.done
    refine ⟨s', ?_, by rw [hc]; exact ha⟩
    simp only [CsvW.save]
    rw [if_neg h0, List.append_nil, List.foldlM_append, hs]
    simp only [Option.bind_eq_bind, Option.bind_some]
    rw [hm0 hc, hs']
  · have h0 : w.cols > 0 := by rw [h2]; exact List.length_pos_iff.2 hc
    obtain ⟨l, x, e⟩ := snoc_of_ne _ hc
    have hst := at_delim (d := 0x2C#8) (hm1 l x e)
    rw [← e] at hst
    obtain ⟨s', hs', ha⟩ := plot_cell v hv t.cur t.done
    refine ⟨s', ?_, ha⟩
    simp only [CsvW.save]
    rw [if_pos h0, List.foldlM_append, List.foldlM_append, hs]
    simp only [Option.bind_eq_bind, Option.bind_some, bComma]
    rw [List.foldlM_cons, hst]
    simp only [Option.bind_eq_bind, Option.bind_some, List.foldlM_nil, Option.pure_def]
    rw [hs']

/-- A text in the current line. -/
theorem plot_put {w : CsvW} {t : CsvTab} (h : PlotInv w t) (v : Bytes) (hv : PlotText v) :
    PlotInv (w.save v).widen ⟨t.done, t.cur ++ [v]⟩ := by
  obtain ⟨h1, h2, h3, s, hs, ha⟩ := plot_save h v hv
  have hw : (w.save v).widen.width = (CsvTab.mk t.done (t.cur ++ [v])).width := by
    unfold CsvW.widen
    by_cases hd : t.done = []
    · rw [if_pos (by rw [h1, hd]; rfl)]
      show max (w.save v).cols (w.save v).width = _
      rw [h2, h3]
      simp [CsvTab.width, hd]
    · rw [if_neg (by rw [h1]; exact fun e => hd (List.length_eq_zero_iff.1 e))]
      rw [h3]
      cases hdd : t.done with
      | nil => exact absurd hdd hd
      | cons a b => simp [CsvTab.width, hdd]
  have e1 : (w.save v).widen.rows = (w.save v).rows := by unfold CsvW.widen; split <;> rfl
  have e2 : (w.save v).widen.cols = (w.save v).cols := by unfold CsvW.widen; split <;> rfl
  have e3 : (w.save v).widen.out = (w.save v).out := by unfold CsvW.widen; split <;> rfl
  refine ⟨by rw [e1, h1], by rw [e2, h2], hw, s, by rw [e3, hs], by simp, ?_⟩
  intro l x e
  have e' : t.cur ++ [v] = l ++ [x] := e
  obtain ⟨ea, eb⟩ := List.append_inj' e' rfl
  have eb' : v = x := by simpa using eb
  rw [← ea, ← eb']
  exact ha

/-- Commas for missing columns. -/
theorem commas_go (k : Nat) (x : Bytes) (l : List Bytes) (rows : List (List Bytes)) (s : CsvSt) (h : CsvAt x l rows s) :
    ∃ s' y l', (List.replicate k 0x2C#8).foldlM (csvStep 0x2C#8) s = some s' ∧ CsvAt y l' rows s' ∧ l' ++ [y] = l ++ [x] ++ List.replicate k [] := by
  induction k generalizing x l s with
  | zero => exact ⟨s, x, l, by simp, h, by simp⟩
  | succ k ih =>
    have hst := at_delim (d := 0x2C#8) h
    obtain ⟨s', y, l', h1, h2, h3⟩ := ih [] (l ++ [x]) ⟨.start, [], l ++ [x], rows⟩ (by simp [CsvAt])
    refine ⟨s', y, l', ?_, h2, ?_⟩
    · rw [List.replicate_succ, List.foldlM_cons, hst]
      simpa using h1
    · rw [h3, List.replicate_succ]
      simp

theorem pads_pos (c k : Nat) (h : c > 0) : (List.range' c k).flatMap (fun i => if i > 0 then [bComma] else []) = List.replicate k 0x2C#8 := by
  induction k generalizing c with
  | zero => rfl
  | succ k ih =>
    rw [List.range'_succ, List.flatMap_cons, ih (c + 1) (by omega), if_pos h]
    rfl

theorem pads_zero (k : Nat) : (List.range' 0 k).flatMap (fun i => if i > 0 then [bComma] else []) = List.replicate (k - 1) 0x2C#8 := by
  cases k with
  | zero => rfl
  | succ k =>
    rw [List.range'_succ, List.flatMap_cons, pads_pos 1 k (by omega)]
    simp

/-- The end of a line. -/
theorem plot_row {w : CsvW} {t : CsvTab} (h : PlotInv w t) (hw : t.done ≠ [] → 0 < t.width) : PlotInv w.row t.next := by
  obtain ⟨h1, h2, h3, s, hs, hm0, hm1⟩ := h
  by_cases he : t.done = [] ∧ t.cur = []
  · have e1 : w.row = w := by
      unfold CsvW.row
      rw [if_pos ⟨by rw [h2, he.2]; rfl, by rw [h1, he.1]; rfl⟩]
    have e2 : t.next = t := by unfold CsvTab.next; rw [if_pos he]
    rw [e1, e2]
    exact ⟨h1, h2, h3, s, hs, hm0, hm1⟩
  · have hn : ¬ (w.cols = 0 ∧ w.rows = 0) := by
      rintro ⟨a, b⟩
      exact he ⟨List.length_eq_zero_iff.1 (by omega), List.length_eq_zero_iff.1 (by omega)⟩
    have e2 : t.next = ⟨t.done ++ [t.cur ++ List.replicate (t.width - t.cur.length) []], []⟩ := by unfold CsvTab.next; rw [if_neg he]
    -- the reader before the line feed
    have hgo : ∃ s' y l', ((List.range' w.cols (w.width - w.cols)).flatMap (fun i => if i > 0 then [bComma] else [])).foldlM
        (csvStep 0x2C#8) s = some s' ∧ CsvAt y l' t.done s' ∧ l' ++ [y] = t.cur ++ List.replicate (t.width - t.cur.length) [] := by
      by_cases hc : t.cur = []
      · have hd : t.done ≠ [] := fun hd => he ⟨hd, hc⟩
        have h0 : w.cols = 0 := by rw [h2, hc]; rfl
        obtain ⟨s', y, l', g1, g2, g3⟩ := commas_go (w.width - 1) [] [] t.done s (by rw [hm0 hc]; simp [CsvAt])
        refine ⟨s', y, l', ?_, g2, ?_⟩
        · rw [h0, pads_zero]; simpa using g1
        · rw [g3, hc]
          have := hw hd
          obtain ⟨k, hk⟩ : ∃ k, t.width = k + 1 := ⟨t.width - 1, by omega⟩
          rw [h3, hk]
          simp [List.replicate_succ]
      · have h0 : w.cols > 0 := by rw [h2]; exact List.length_pos_iff.2 hc
        obtain ⟨l, x, e⟩ := snoc_of_ne _ hc
        obtain ⟨s', y, l', g1, g2, g3⟩ := commas_go (w.width - w.cols) x l t.done s (hm1 l x e)
        refine ⟨s', y, l', ?_, g2, ?_⟩
        · rw [pads_pos _ _ h0]; exact g1
        · rw [g3, ← e, h3, h2]
    obtain ⟨s', y, l', g1, g2, g3⟩ := hgo
    have hl := at_line (d := 0x2C#8) (by decide) g2
    rw [e2]
    have hout : w.row.out.foldlM (csvStep 0x2C#8) ({} : CsvSt) =
        some ⟨.start, [], [], t.done ++ [t.cur ++ List.replicate (t.width - t.cur.length) []]⟩ := by
      unfold CsvW.row
      rw [if_neg hn]
      simp only []
      rw [List.foldlM_append, List.foldlM_append, hs]
      simp only [Option.bind_eq_bind, Option.bind_some]
      rw [g1]
      simp only [Option.bind_eq_bind, Option.bind_some, bLine]
      rw [List.foldlM_cons, hl, g3]
      simp
    have r1 : w.row.rows = w.rows + 1 := by unfold CsvW.row; rw [if_neg hn]
    have r2 : w.row.cols = 0 := by unfold CsvW.row; rw [if_neg hn]
    have r3 : w.row.width = w.width := by unfold CsvW.row; rw [if_neg hn]
    refine ⟨by rw [r1, h1]; simp, by rw [r2]; rfl, ?_, _, hout, fun _ => rfl, ?_⟩
    · rw [r3, h3]
      cases hdd : t.done with
      | nil => simp [CsvTab.width, hdd]
      | cons a b => simp [CsvTab.width, hdd]
    · intro l x e
      exact absurd e (by simp)

/-- There is at least one column, and the lines are not shorter than the first. -/
def PlotWide (t : CsvTab) : Prop := t.done ≠ [] → 0 < t.width

theorem wide_next {t : CsvTab} (h : PlotWide t) : PlotWide t.next := by
  intro hd
  unfold CsvTab.next at hd ⊢
  by_cases he : t.done = [] ∧ t.cur = []
  · rw [if_pos he] at hd; exact absurd he.1 hd
  · rw [if_neg he]
    by_cases hdd : t.done = []
    · have : t.cur ≠ [] := fun hc => he ⟨hdd, hc⟩
      have := List.length_pos_iff.2 this
      simp [CsvTab.width, hdd]
      omega
    · have := h hdd
      cases hx : t.done with
      | nil => exact absurd hx hdd
      | cons a b =>
        simp only [CsvTab.width, hx, List.headD_cons] at this
        simpa [CsvTab.width, hx] using this

theorem wide_put {t : CsvTab} (h : PlotWide t) (v : Bytes) : PlotWide ⟨t.done, t.cur ++ [v]⟩ := by
  intro hd
  have hd' : t.done ≠ [] := hd
  have := h hd'
  cases hx : t.done with
  | nil => exact absurd hx hd'
  | cons a b =>
    simp only [CsvTab.width, hx, List.headD_cons] at this
    simpa [CsvTab.width, hx] using this

theorem digits_plot (n : Nat) : PlotText (decText n) := by
  left
  intro h
  have := decText_digits n _ h
  revert this
  decide

theorem plot_call {w : CsvW} {t : CsvTab} (h : PlotInv w t) (hw : PlotWide t) (c : CsvCall) (hc : PlotCall c) :
    PlotInv (w.call c) (t.call c) ∧ PlotWide (t.call c) := by
  cases c with
  | header n u =>
    show PlotInv (w.header n u) (if t.done = [] then _ else t) ∧ PlotWide (if t.done = [] then _ else t)
    unfold CsvW.header
    by_cases hd : t.done = []
    · rw [if_neg (by rw [h.1, hd]; simp), if_pos hd, csvLabel_title]
      have := plot_put h (columnTitle n u) hc
      rw [hd] at this
      refine ⟨this, fun h' => absurd rfl h'⟩
    · rw [if_pos (by rw [h.1]; exact fun e => hd (List.length_eq_zero_iff.1 e)), if_neg hd]
      exact ⟨h, hw⟩
  | text v =>
    have hcond : (w.rows > 0 ∧ w.cols ≥ w.width) ↔ (t.done ≠ [] ∧ t.width ≤ t.cur.length) := by
      rw [h.1, h.2.1, h.2.2.1]
      constructor
      · rintro ⟨a, b⟩; exact ⟨List.length_pos_iff.1 a, b⟩
      · rintro ⟨a, b⟩; exact ⟨List.length_pos_iff.2 a, b⟩
    by_cases hh : t.done ≠ [] ∧ t.width ≤ t.cur.length
    · have e1 : w.call (.text v) = (w.row.save v).widen := by
        show CsvW.text w v = _
        unfold CsvW.text
        rw [if_pos (hcond.2 hh)]
      have e2 : t.call (.text v) = ⟨t.next.done, t.next.cur ++ [v]⟩ := by simp only [CsvTab.call]; rw [if_pos hh]
      rw [e1, e2]
      exact ⟨plot_put (plot_row h hw) v hc, wide_put (wide_next hw) v⟩
    · have e1 : w.call (.text v) = (w.save v).widen := by
        show CsvW.text w v = _
        unfold CsvW.text
        rw [if_neg (fun x => hh (hcond.1 x))]
      have e2 : t.call (.text v) = ⟨t.done, t.cur ++ [v]⟩ := by simp only [CsvTab.call]; rw [if_neg hh]
      rw [e1, e2]
      exact ⟨plot_put h v hc, wide_put hw v⟩
  | int n => exact ⟨plot_put h _ (digits_plot n), wide_put hw _⟩
  | row => exact ⟨plot_row h hw, wide_next hw⟩

theorem plot_calls (cs : List CsvCall) (h : ∀ c ∈ cs, PlotCall c) {w : CsvW} {t : CsvTab} (hi : PlotInv w t) (hw : PlotWide t) :
    PlotInv (cs.foldl CsvW.call w) (cs.foldl CsvTab.call t) := by
  induction cs generalizing w t with
  | nil => exact hi
  | cons c cs ih =>
    have := plot_call hi hw c (h c (by simp))
    exact ih (fun x hx => h x (by simp [hx])) this.1 this.2

theorem plot_init : PlotInv {} {} := ⟨rfl, rfl, rfl, _, rfl, fun _ => rfl, fun l x e => absurd e (by simp)⟩

/-- What is read of the output, if all lines are finished. -/
theorem plot_read (cs : List CsvCall) (h : ∀ c ∈ cs, PlotCall c) (hc : (cs.foldl CsvTab.call {}).cur = []) :
    csvRead 0x2C#8 (cs.foldl CsvW.call {}).out = some (cs.foldl CsvTab.call {}).done := by
  obtain ⟨_, _, _, s, hs, h0, _⟩ := plot_calls cs h plot_init (fun h => absurd rfl h)
  unfold csvRead
  rw [hs]
  simp [h0 hc, csvFinish]

/-! ### The lines are equally long -/

theorem wide_call {t : CsvTab} (hw : PlotWide t) (c : CsvCall) : PlotWide (t.call c) := by
  cases c with
  | header n u =>
    simp only [CsvTab.call]
    by_cases hd : t.done = []
    · rw [if_pos hd]; exact fun h' => absurd rfl h'
    · rw [if_neg hd]; exact hw
  | text v =>
    simp only [CsvTab.call]
    by_cases hh : t.done ≠ [] ∧ t.width ≤ t.cur.length
    · rw [if_pos hh]; exact wide_put (wide_next hw) v
    · rw [if_neg hh]; exact wide_put hw v
  | int n => exact wide_put hw _
  | row => exact wide_next hw

theorem tab_width (cs : List CsvCall) (hn : ∀ n, CsvCall.int n ∉ cs) {t : CsvTab}
    (h : (∀ r ∈ t.done, r.length = t.width) ∧ (t.done ≠ [] → t.cur.length ≤ t.width)) (hw : PlotWide t) :
    ∀ r ∈ (cs.foldl CsvTab.call t).done, r.length = (cs.foldl CsvTab.call t).width := by
  induction cs generalizing t with
  | nil => exact h.1
  | cons c cs ih =>
    refine ih (fun n hh => hn n (by simp [hh])) ?_ (wide_call hw c)
    have next : ∀ t : CsvTab, (∀ r ∈ t.done, r.length = t.width) ∧ (t.done ≠ [] → t.cur.length ≤ t.width) →
        (∀ r ∈ t.next.done, r.length = t.next.width) ∧ t.next.cur = [] := by
      intro t h
      unfold CsvTab.next
      by_cases he : t.done = [] ∧ t.cur = []
      · rw [if_pos he]; exact ⟨h.1, he.2⟩
      · rw [if_neg he]
        refine ⟨?_, rfl⟩
        cases hdd : t.done with
        | nil => simp [CsvTab.width, hdd]
        | cons a b =>
          have h2 := h.2 (by rw [hdd]; simp)
          have h1 := h.1
          simp only [CsvTab.width, hdd, List.headD_cons, List.cons_append] at h1 h2 ⊢
          intro r hr
          rcases List.mem_cons.1 hr with hr | hr
          · rw [hr]
          · rcases List.mem_append.1 hr with hr | hr
            · exact h1 r (by simp [hr])
            · have : r = t.cur ++ List.replicate (a.length - t.cur.length) [] := by simpa using hr
              rw [this]; simp; omega
    cases c with
    | header n u =>
      show (∀ r ∈ (if t.done = [] then _ else t : CsvTab).done, _) ∧ _
      simp only [CsvTab.call]
      by_cases hd : t.done = []
      · rw [if_pos hd]; simp
      · rw [if_neg hd]; exact h
    | text v =>
      simp only [CsvTab.call]
      by_cases hh : t.done ≠ [] ∧ t.width ≤ t.cur.length
      · rw [if_pos hh]
        obtain ⟨n1, n2⟩ := next t h
        have hne : t.next.done ≠ [] := by unfold CsvTab.next; rw [if_neg (fun e => hh.1 e.1)]; simp
        have ew : (CsvTab.mk t.next.done (t.next.cur ++ [v])).width = t.next.width := by
          cases hx : t.next.done with
          | nil => exact absurd hx hne
          | cons a b => simp [CsvTab.width, hx]
        refine ⟨fun r hr => ?_, fun _ => ?_⟩
        · rw [ew]; exact n1 r hr
        · rw [ew, n2]
          have : 0 < t.next.width := by
            have e : t.next.width = t.width := by
              unfold CsvTab.next; rw [if_neg (fun e => hh.1 e.1)]
              cases hx : t.done with
              | nil => exact absurd hx hh.1
              | cons a b => simp [CsvTab.width, hx]
            rw [e]; exact hw hh.1
          simp only [List.nil_append, List.length_singleton]
          exact this
      · rw [if_neg hh]
        by_cases hd : t.done = []
        · simp [hd]
        · have ew : (CsvTab.mk t.done (t.cur ++ [v])).width = t.width := by
            cases hx : t.done with
            | nil => exact absurd hx hd
            | cons a b => simp [CsvTab.width, hx]
          refine ⟨fun r hr => by rw [ew]; exact h.1 r hr, fun _ => ?_⟩
          rw [ew]
          have : ¬ t.width ≤ t.cur.length := fun e => hh ⟨hd, e⟩
          simp only [List.length_append, List.length_singleton]
          omega
    | int n => exact absurd (by simp) (hn n)
    | row =>
      obtain ⟨n1, n2⟩ := next t h
      exact ⟨n1, fun _ => by show t.next.cur.length ≤ _; rw [n2]; simp⟩

/-! ### The file for a plot -/

theorem headers_go (l : List CsvObs) (cur : List Bytes) :
    (l.map fun o => CsvCall.header o.name o.unit).foldl CsvTab.call ⟨[], cur⟩ = ⟨[], cur ++ l.map fun o => columnTitle o.name o.unit⟩ := by
  induction l generalizing cur with
  | nil => simp
  | cons o l ih =>
    rw [List.map_cons, List.foldl_cons, show CsvTab.call ⟨[], cur⟩ (.header o.name o.unit) = ⟨[], cur ++ [columnTitle o.name o.unit]⟩ from by
      simp [CsvTab.call], ih]
    simp

theorem texts_go (l : List CsvObs) (i : Nat) (hd : List Bytes) (done : List (List Bytes)) (cur : List Bytes)
    (h : cur.length + l.length ≤ hd.length) :
    (l.map fun o => CsvCall.text (if (o.value i).1 then (o.value i).2 else [])).foldl CsvTab.call ⟨hd :: done, cur⟩ =
      ⟨hd :: done, cur ++ l.map fun o => sampleText o i⟩ := by
  induction l generalizing cur with
  | nil => simp
  | cons o l ih =>
    have hlt : ¬ hd.length ≤ cur.length := by simp only [List.length_cons] at h; omega
    rw [List.map_cons, List.foldl_cons, show CsvTab.call ⟨hd :: done, cur⟩ (.text (if (o.value i).1 then (o.value i).2 else [])) =
      ⟨hd :: done, cur ++ [sampleText o i]⟩ from by
        simp only [CsvTab.call]
        rw [if_neg (by simp only [CsvTab.width, List.headD_cons]; exact fun e => hlt e.2)]
        rfl, ih _ (by simp only [List.length_append, List.length_cons, List.length_nil] at h ⊢; omega)]
    simp

theorem plotRow_go (l : List CsvObs) (i : Nat) (hd : List Bytes) (done : List (List Bytes))
    (h : hd.length = l.length + if plotMaster l then 0 else 1) :
    (plotRow l i).foldl CsvTab.call ⟨hd :: done, []⟩ =
      ⟨hd :: done ++ [if plotMaster l then l.map fun o => sampleText o i else decText i :: l.map fun o => sampleText o i], []⟩ := by
  unfold plotRow
  rw [List.foldl_append, List.foldl_append]
  by_cases hm : plotMaster l = true
  · simp only [hm, if_true] at h ⊢
    rw [List.foldl_nil, texts_go l i hd done [] (by simp [h])]
    simp [CsvTab.call, CsvTab.next, CsvTab.width, h]
  · simp only [hm] at h ⊢
    have e : [CsvCall.int i].foldl CsvTab.call ⟨hd :: done, []⟩ = ⟨hd :: done, [decText i]⟩ := by simp [CsvTab.call]
    simp only [Bool.false_eq_true, if_false] at h ⊢
    rw [e, texts_go l i hd done [decText i] (by simp [h]; omega)]
    simp [CsvTab.call, CsvTab.next, CsvTab.width, h]

theorem plotRows_go (l : List CsvObs) (is : List Nat) (hd : List Bytes) (done : List (List Bytes))
    (h : hd.length = l.length + if plotMaster l then 0 else 1) :
    (is.flatMap (plotRow l)).foldl CsvTab.call ⟨hd :: done, []⟩ =
      ⟨hd :: done ++ is.map fun i => if plotMaster l then l.map fun o => sampleText o i else decText i :: l.map fun o => sampleText o i, []⟩ := by
  induction is generalizing done with
  | nil => simp
  | cons i is ih =>
    rw [List.flatMap_cons, List.foldl_append, plotRow_go l i hd done h, List.cons_append, ih]
    simp

theorem plotCalls_go (o : CsvObs) (l : List CsvObs) :
    (plotCalls (o :: l)).foldl CsvTab.call {} =
      ⟨if plotMaster (o :: l) then channelTable (o :: l) o.nof else numberedTable (o :: l) o.nof, []⟩ := by
  have hx : plotCalls (o :: l) = (if plotMaster (o :: l) then [] else [.header wSample []]) ++
      (o :: l).map (fun o => .header o.name o.unit) ++ [.row] ++ (List.range o.nof).flatMap (plotRow (o :: l)) := rfl
  rw [hx, List.foldl_append, List.foldl_append, List.foldl_append]
  by_cases hm : plotMaster (o :: l) = true
  · have hp := plotRows_go (o :: l) (List.range o.nof) ((o :: l).map fun o => columnTitle o.name o.unit) [] (by simp [hm])
    simp only [hm, if_true] at hp ⊢
    rw [List.foldl_nil, headers_go, List.nil_append]
    rw [show [CsvCall.row].foldl CsvTab.call ⟨[], (o :: l).map fun o => columnTitle o.name o.unit⟩ =
      ⟨[(o :: l).map fun o => columnTitle o.name o.unit], []⟩ from by simp [CsvTab.call, CsvTab.next, CsvTab.width], hp]
    rfl
  · have hp := plotRows_go (o :: l) (List.range o.nof) (wSample :: (o :: l).map fun o => columnTitle o.name o.unit) [] (by simp [hm])
    simp only [hm, Bool.false_eq_true, if_false] at hp ⊢
    rw [show [CsvCall.header wSample []].foldl CsvTab.call {} = ⟨[], [wSample]⟩ from by simp [CsvTab.call, columnTitle], headers_go]
    rw [show [CsvCall.row].foldl CsvTab.call ⟨[], [wSample] ++ (o :: l).map fun o => columnTitle o.name o.unit⟩ =
      ⟨[wSample :: (o :: l).map fun o => columnTitle o.name o.unit], []⟩ from by simp [CsvTab.call, CsvTab.next, CsvTab.width], hp]
    rfl

end Mdf
