import Verif.Proof.Csv

/-!
# C88: what a CSV file says

The files of both writers, read by a reader of CSV files, against the table that they are made of.
-/

namespace Mdf

/-! ## mdf2csv -/

/-- mdf2csv: a file with at least one channel and one sample has the titles and then the samples, the masters first. -/
def C88_Statement : Prop :=
  ∀ (o : CsvObs) (l : List CsvObs), 0 < o.nof →
    ∃ b, csvConvert ((o :: l).map some) = .file b ∧ csvRead 0x3B#8 b = some (channelTable (mastersFirst (o :: l)) o.nof)

/-- It holds if no name, unit or text has a `"` in it.  Texts may have delimiters, line feeds and spaces in them. -/
theorem C88_convert_partial (o : CsvObs) (l : List CsvObs) (hn : 0 < o.nof)
    (h : ∀ x ∈ o :: l, 0x22#8 ∉ x.name ∧ 0x22#8 ∉ x.unit ∧ ∀ i < o.nof, 0x22#8 ∉ sampleText x i) :
    ∃ b, csvConvert ((o :: l).map some) = .file b ∧ csvRead 0x3B#8 b = some (channelTable (mastersFirst (o :: l)) o.nof) := by
  have hm : ((o :: l).map some).filterMap id = o :: l := by
    rw [List.filterMap_map]; simp
  have eo : csvOrder ((o :: l).map some) = mastersFirst (o :: l) := by unfold csvOrder mastersFirst; rw [hm]
  have hne : mastersFirst (o :: l) ≠ [] := by
    unfold mastersFirst
    by_cases h : o.master = true <;> simp [h]
  refine ⟨csvFile bSemi o.nof (mastersFirst (o :: l)), ?_, ?_⟩
  · unfold csvConvert
    rw [eo, if_neg hne]
    simp only [List.map_cons]
    rw [if_neg (by omega)]
  · refine file_read (by decide) (by decide) _ _ hne fun x hx => h x ?_
    unfold mastersFirst at hx
    rcases List.mem_append.1 hx with hx | hx <;> exact (List.mem_filter.1 hx).1

/-- Without channels or samples no file is written. -/
theorem C88_no_file (l : List CsvObs) (h : ∀ o ∈ l.head?, o.nof = 0) : csvConvert (l.map some) = .nothing := by
  unfold csvConvert
  by_cases he : csvOrder (l.map some) = []
  · rw [if_pos he]
  · rw [if_neg he]
    cases l with
    | nil => rfl
    | cons o l => simp [h o (by simp)]

/-- Two channels: a number and a text with quotes. -/
def exQuote (v : Bytes) : List CsvObs := [⟨true, [0x74#8], [0x73#8], 1, fun _ => (true, [0x31#8])⟩, ⟨false, [0x61#8], [], 1, fun _ => (true, v)⟩]

example : csvConvert ((exQuote [0x78#8, 0x3B#8, 0x0A#8, 0x79#8]).map some) =
    .file [34#8, 116#8, 32#8, 91#8, 115#8, 93#8, 34#8, 59#8, 34#8, 97#8, 34#8, 10#8, 49#8, 59#8, 34#8, 120#8, 59#8, 10#8, 121#8, 34#8, 10#8] := by
  decide

example : csvRead 0x3B#8 (csvFile bSemi 1 (exQuote [0x78#8, 0x3B#8, 0x0A#8, 0x79#8])) =
    some [[[0x74#8, 0x20#8, 0x5B#8, 0x73#8, 0x5D#8], [0x61#8]], [[0x31#8], [0x78#8, 0x3B#8, 0x0A#8, 0x79#8]]] := by decide

/-- A text with one `"` makes the file unreadable, and the text `x";"y` becomes two columns. -/
theorem C88_quote_breaks : csvRead 0x3B#8 (csvFile bSemi 1 (exQuote [0x78#8, 0x22#8, 0x79#8])) = none ∧
    csvRead 0x3B#8 (csvFile bSemi 1 (exQuote [0x78#8, 0x22#8, 0x3B#8, 0x22#8, 0x79#8])) =
      some [[[0x74#8, 0x20#8, 0x5B#8, 0x73#8, 0x5D#8], [0x61#8]], [[0x31#8], [0x78#8], [0x79#8]]] := by decide

theorem C88_full_statement_fails : ¬ C88_Statement := by
  intro h
  obtain ⟨b, hb, hr⟩ := h ⟨true, [0x74#8], [0x73#8], 1, fun _ => (true, [0x22#8])⟩ [] (by decide)
  have e : csvConvert [some ⟨true, [0x74#8], [0x73#8], 1, fun _ => (true, [0x22#8])⟩] =
      .file (csvFile bSemi 1 [⟨true, [0x74#8], [0x73#8], 1, fun _ => (true, [0x22#8])⟩]) := by rfl
  rw [List.map_cons, List.map_nil, e] at hb
  injection hb with hb
  rw [← hb] at hr
  revert hr
  rw [show csvRead 0x3B#8 (csvFile bSemi 1 [⟨true, [0x74#8], [0x73#8], 1, fun _ => (true, [0x22#8])⟩]) = none from by decide]
  simp

/-! ## mdfviewer -/

/-- The viewer: after any calls that finish the last line, the file has the table that the calls built up. -/
def C88_Calls_Statement : Prop :=
  ∀ cs : List CsvCall, (cs.foldl CsvTab.call {}).cur = [] → csvRead 0x2C#8 (cs.foldl CsvW.call {}).out = some (cs.foldl CsvTab.call {}).done

/-- It holds if each text has no `"`, or a comma, a space or a sign outside printable ASCII too. -/
theorem C88_calls_partial (cs : List CsvCall) (h : ∀ c ∈ cs, PlotCall c) (hc : (cs.foldl CsvTab.call {}).cur = []) :
    csvRead 0x2C#8 (cs.foldl CsvW.call {}).out = some (cs.foldl CsvTab.call {}).done := plot_read cs h hc

/-- If no integers are written, all lines have as many fields as the first, whatever the order of the calls. -/
theorem C88_rectangular (cs : List CsvCall) (h : ∀ c ∈ cs, PlotCall c) (hc : (cs.foldl CsvTab.call {}).cur = [])
    (hn : ∀ n, CsvCall.int n ∉ cs) :
    ∃ table, csvRead 0x2C#8 (cs.foldl CsvW.call {}).out = some table ∧ ∀ r ∈ table, ∀ r' ∈ table, r.length = r'.length := by
  refine ⟨_, plot_read cs h hc, fun r hr r' hr' => ?_⟩
  have := tab_width cs hn (t := {}) ⟨by simp, fun e => absurd rfl e⟩ (fun e => absurd rfl e)
  rw [this r hr, this r' hr']

/-- With integers a line may be longer than the first. -/
theorem C88_integers_widen : csvRead 0x2C#8 (([.header [0x61#8] [], .row, .int 1, .int 2, .row] : List CsvCall).foldl CsvW.call {}).out =
    some [[[0x61#8]], [[0x31#8], [0x32#8]]] := by decide

/-- `say "hi"` can be written, `a"b` cannot. -/
example : PlotText [0x73#8, 0x22#8, 0x20#8] ∧ ¬ PlotText [0x61#8, 0x22#8, 0x62#8] := by
  unfold PlotText
  decide

/-- The text `a"b` makes the file unreadable. -/
theorem C88_calls_statement_fails : ¬ C88_Calls_Statement := by
  intro h
  have := h [.text [0x61#8, 0x22#8, 0x62#8], .row] (by decide)
  revert this
  decide

/-- The file for a plot: the channels as columns; the samples are numbered unless there are two channels or more and the first is a master. -/
theorem C88_plot_partial (o : CsvObs) (l : List CsvObs)
    (h : ∀ x ∈ o :: l, PlotText (columnTitle x.name x.unit) ∧ ∀ i < o.nof, PlotText (sampleText x i)) :
    csvRead 0x2C#8 ((plotCalls (o :: l)).foldl CsvW.call {}).out =
      some (if l ≠ [] ∧ o.master = true then channelTable (o :: l) o.nof else numberedTable (o :: l) o.nof) := by
  have hm : plotMaster (o :: l) = true ↔ l ≠ [] ∧ o.master = true := by
    cases l with
    | nil => simp [plotMaster]
    | cons a b => simp [plotMaster]
  have hg := plotCalls_go o l
  have hc : ∀ c ∈ plotCalls (o :: l), PlotCall c := by
    intro c hc
    simp only [plotCalls, List.mem_append, List.mem_flatMap, List.mem_range] at hc
    rcases hc with ((hc | hc) | hc) | ⟨i, hi, hc⟩
    · by_cases hp : plotMaster (o :: l) = true
      · simp [hp] at hc
      · simp [hp] at hc
        rw [hc]
        show PlotText (columnTitle wSample [])
        unfold PlotText
        decide
    · obtain ⟨x, hx, rfl⟩ := List.mem_map.1 hc
      exact (h x hx).1
    · have : c = .row := by simpa using hc
      rw [this]; trivial
    · simp only [plotRow, List.mem_append] at hc
      rcases hc with (hc | hc) | hc
      · by_cases hp : plotMaster (o :: l) = true
        · simp [hp] at hc
        · simp [hp] at hc
          rw [hc]; trivial
      · obtain ⟨x, hx, rfl⟩ := List.mem_map.1 hc
        exact (h x hx).2 i hi
      · have : c = .row := by simpa using hc
        rw [this]; trivial
  have := plot_read (plotCalls (o :: l)) hc (by rw [hg])
  rw [this, hg]
  by_cases hp : plotMaster (o :: l) = true
  · simp only [hp, if_true]; rw [if_pos (hm.1 hp)]
  · simp only [hp, if_false]; rw [if_neg (fun e => hp (hm.2 e))]; simp

example : csvRead 0x2C#8 ((plotCalls [⟨false, [0x61#8], [0x56#8], 2, fun i => (i == 1, [0x78#8, 0x2C#8])⟩]).foldl CsvW.call {}).out =
    some [[wSample, [0x61#8, 0x20#8, 0x5B#8, 0x56#8, 0x5D#8]], [[0x30#8], []], [[0x31#8], [0x78#8, 0x2C#8]]] := by decide

end Mdf
