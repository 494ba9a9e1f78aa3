import Verif.Model.FileApi
import Verif.Props.Id
import Mathlib.Data.List.Induction

/-!
C123: version and name of a file, names of bus types.  C124: log messages.
-/

namespace Mdf

/-! ### Version -/

/-- **C123**, full statement: a new reader finds the minor version that was set, as the comment of `MinorVersion()` promises ("1 for version
4.1 and 11 for version 4.11"). -/
def C123_Statement : Prop :=
  ∀ (pre : List IdOp) (m : Int), .write ∉ pre → .reopen ∉ pre → lastMinor pre = some m → 0 ≤ m → m ≤ 99 →
    ∃ s b, idRun (pre ++ [.write]) (newId4, []) = some s ∧ readIdBlock s.2 = some b ∧ b.mainVersion = 4 ∧ b.minorOfText = m

theorem versionText_read : ∀ major : Fin 10, ∀ m : Fin 100, stollText ((trim (versionText major.val m.val)).take 1) = some (major.val : Int) ∧
    (substrFrom (trim (versionText major.val m.val)) 2).bind stollText = some (m.val : Int) := by
  decide +kernel

theorem reads_version {major dflt : Nat} {cls : FileClass} {pre post : List IdOp} {file : Bytes} (hM : major < 10) (hd : dflt < 100)
    (h : IdReads major dflt cls pre post file) : ∃ b, readIdBlock file = some b ∧ b.mainVersion = major ∧
      b.minorOfText = ((lastMinor pre).map minorNumber).getD dflt := by
  obtain ⟨b, h1, _, _, h2, _⟩ := h.found
  have e : ∃ m : Fin 100, versionNumber major dflt (lastMinor pre) % 100 = m.val ∧ ((lastMinor pre).map minorNumber).getD dflt = m.val := by
    cases lastMinor pre with
    | none =>
      refine ⟨⟨dflt, hd⟩, ?_, rfl⟩
      simp only [versionNumber]
      omega
    | some m =>
      have hm : minorNumber m < 100 := by
        unfold minorNumber
        split
        · omega
        · split <;> omega
      refine ⟨⟨minorNumber m, hm⟩, ?_, rfl⟩
      simp only [versionNumber]
      omega
  obtain ⟨m, e1, e2⟩ := e
  obtain ⟨r1, r2⟩ := versionText_read ⟨major, hM⟩ m
  refine ⟨b, h1, ?_, ?_⟩
  · rw [IdBlk.mainVersion, IdBlk.versionString, h2, e1, r1]
    rfl
  · rw [IdBlk.minorOfText, IdBlk.versionString, h2, e1, r2, e2]
    rfl

/-- **C123** (version), for MDF 4: whatever is done with the file, a new reader finds the main version 4 and the minor version that was set
before the file was written, 20 if none was; a number of one digit is taken for tens, of numbers over 99 the last two digits count. -/
theorem C123_version4 (pre post : List IdOp) (hw : .write ∉ pre) (hr : .reopen ∉ pre) (file : Bytes) :
    ∃ s b, idRun (pre ++ .write :: post) (newId4, file) = some s ∧ readIdBlock s.2 = some b ∧ b.mainVersion = 4 ∧
      b.minorOfText = ((lastMinor pre).map minorNumber).getD 20 := by
  obtain ⟨s, h1, h2⟩ := C39_history_mdf4 pre post hw hr file
  obtain ⟨b, h3, h4, h5⟩ := reads_version (by decide) (by decide) h2
  exact ⟨s, b, h1, h3, h4, h5⟩

/-- **C123** (version), for MDF 3: the main version is 3; the minor version is 30 if none was set. -/
theorem C123_version3 (pre post : List IdOp) (hw : .write ∉ pre) (hr : .reopen ∉ pre) (file : Bytes) :
    ∃ s b, idRun (pre ++ .write :: post) (newId3, file) = some s ∧ readIdBlock s.2 = some b ∧ b.mainVersion = 3 ∧
      b.minorOfText = ((lastMinor pre).map minorNumber).getD 30 := by
  obtain ⟨s, h1, h2⟩ := C39_history_mdf3 pre post hw hr file
  obtain ⟨b, h3, h4, h5⟩ := reads_version (by decide) (by decide) h2
  exact ⟨s, b, h1, h3, h4, h5⟩

/-- **C123**, partial: the minor version is found as it was set if it is 0 or has two digits. -/
theorem C123_minor_partial (pre post : List IdOp) (hw : .write ∉ pre) (hr : .reopen ∉ pre) (m : Int) (hl : lastMinor pre = some m)
    (hm : m = 0 ∨ (10 ≤ m ∧ m ≤ 99)) (file : Bytes) :
    ∃ s b, idRun (pre ++ .write :: post) (newId4, file) = some s ∧ readIdBlock s.2 = some b ∧ b.mainVersion = 4 ∧ b.minorOfText = m := by
  obtain ⟨s, b, h1, h2, h3, h4⟩ := C123_version4 pre post hw hr file
  refine ⟨s, b, h1, h2, h3, ?_⟩
  rw [h4, hl]
  show ((minorNumber m : Nat) : Int) = m
  unfold minorNumber
  split
  · omega
  · split <;> omega

example : ∃ s b, idRun ([.minor 3, .program [0x58#8], .minor 11] ++ .write :: [.mark false 1 0, .reopen]) (newId4, []) = some s ∧
    readIdBlock s.2 = some b ∧ b.mainVersion = 4 ∧ b.minorOfText = 11 :=
  C123_minor_partial _ _ (by decide) (by decide) 11 (by decide) (by decide) []

/-- **C123**, finding: minor version 1 is found as 10, for every history. -/
theorem C123_one_digit (pre post : List IdOp) (hw : .write ∉ pre) (hr : .reopen ∉ pre) (m : Int) (hl : lastMinor pre = some m)
    (hm : 1 ≤ m ∧ m ≤ 9) (file : Bytes) :
    ∃ s b, idRun (pre ++ .write :: post) (newId4, file) = some s ∧ readIdBlock s.2 = some b ∧ b.minorOfText = 10 * m ∧ b.minorOfText ≠ m := by
  obtain ⟨s, b, h1, h2, h3, h4⟩ := C123_version4 pre post hw hr file
  have e : b.minorOfText = 10 * m := by
    rw [h4, hl]
    show ((minorNumber m : Nat) : Int) = 10 * m
    unfold minorNumber
    rw [if_neg (by omega), if_pos (by omega)]
    omega
  exact ⟨s, b, h1, h2, e, by omega⟩

theorem C123_false : ¬ C123_Statement := by
  intro h
  obtain ⟨s, b, h1, h2, _, h3⟩ := h [.minor 1] 1 (by decide) (by decide) (by decide) (by decide) (by decide)
  obtain ⟨s', b', h4, h5, _, h6⟩ := C123_one_digit [.minor 1] [] (by decide) (by decide) 1 (by decide) (by decide) []
  rw [h1] at h4
  cases h4
  rw [h2] at h5
  cases h5
  exact h6 h3

/-- **C123**, finding: the class of a file is chosen by the number in the ID block, `MainVersion()` is told by the text beside it, and nothing
compares them: a file is read as MDF 4 with any text for the version. -/
theorem C123_class_by_number (text : Bytes) : ∃ file b, openAs file = some .mdf4 ∧ readIdBlock file = some b ∧
    b.versionString = trim (fieldText text) := by
  have h := readId_bytes { newId4 with format := text } rfl []
  rw [List.append_nil] at h
  refine ⟨_, _, ?_, h, rfl⟩
  rw [openAs, h]
  rfl

/-- A file that is read as MDF 4 and tells the main version 3. -/
example : openAs ({ newId4 with format := newId3.format } : IdBlk).bytes = some .mdf4 ∧
    (readIdBlock ({ newId4 with format := newId3.format } : IdBlk).bytes).map IdBlk.mainVersion = some 3 := by decide +kernel

/-- **C123**: a version text that is empty gives the versions 0. -/
theorem C123_no_text (b : IdBlk) (h : b.versionString = []) : b.mainVersion = 0 ∧ b.minorOfText = 0 := by
  constructor
  · rw [IdBlk.mainVersion, h]; rfl
  · rw [IdBlk.minorOfText, h]; rfl

example : ({ newId4 with format := [0x20#8, 0x20#8] } : IdBlk).versionString = [] := by decide

/-! ### Name -/

theorem pathFile_spec (dir base : Bytes) (hb : 0x2F#8 ∉ base) (hd : dir = [] ∨ ∃ d, dir = d ++ [0x2F#8]) : pathFile (dir ++ base) = base := by
  have hb' : ∀ c ∈ base.reverse, decide (c ≠ 0x2F#8) = true := by
    intro c hc
    rw [decide_eq_true_eq]
    rintro rfl
    exact hb (List.mem_reverse.mp hc)
  rw [pathFile, List.reverse_append]
  rcases hd with rfl | ⟨d, rfl⟩
  · have e := List.takeWhile_append_of_pos (l₂ := []) hb'
    rw [List.append_nil, List.takeWhile_nil, List.append_nil] at e
    rw [List.reverse_nil, List.append_nil, e, List.reverse_reverse]
  · rw [List.takeWhile_append_of_pos hb', List.reverse_append (as := d), List.reverse_singleton, List.singleton_append,
      List.takeWhile_cons_of_neg (by decide), List.append_nil, List.reverse_reverse]

/-- **C123** (name): the stem of a path is its last part without the extension. -/
theorem C123_stem (dir base ext : Bytes) (hd : dir = [] ∨ ∃ d, dir = d ++ [0x2F#8]) (hb : 0x2F#8 ∉ base) (he : 0x2F#8 ∉ ext) (hp : 0x2E#8 ∉ ext)
    (hn : base ≠ []) (hdot : base ≠ [0x2E#8] ∨ ext ≠ []) : pathStem (dir ++ (base ++ 0x2E#8 :: ext)) = base := by
  have hf : pathFile (dir ++ (base ++ 0x2E#8 :: ext)) = base ++ 0x2E#8 :: ext := by
    refine pathFile_spec _ _ ?_ hd
    simp only [List.mem_append, List.mem_cons, not_or]
    exact ⟨hb, by decide, he⟩
  have he' : ∀ c ∈ ext.reverse, decide (c ≠ 0x2E#8) = true := by
    intro c hc
    rw [decide_eq_true_eq]
    rintro rfl
    exact hp (List.mem_reverse.mp hc)
  have e : (((base ++ 0x2E#8 :: ext).reverse.dropWhile (· ≠ 0x2E#8)).drop 1) = base.reverse := by
    rw [List.reverse_append, List.reverse_cons, List.append_assoc, List.dropWhile_append_of_pos he', List.singleton_append,
      List.dropWhile_cons_of_neg (by decide)]
    rfl
  simp only [pathStem, hf, e]
  rw [if_neg, List.reverse_reverse]
  rintro (h | h)
  · cases base with
    | nil => exact hn rfl
    | cons c t =>
      rw [List.cons_append, List.cons.injEq] at h
      obtain ⟨rfl, h⟩ := h
      cases t with
      | nil =>
        rw [List.nil_append, List.cons.injEq] at h
        rcases hdot with h' | h'
        · exact h' rfl
        · exact h' h.2
      | cons c' t' => simp at h
  · exact hn (List.reverse_eq_nil_iff.mp h)

/-- A name without a point is its own stem. -/
theorem C123_stem_plain (dir base : Bytes) (hd : dir = [] ∨ ∃ d, dir = d ++ [0x2F#8]) (hb : 0x2F#8 ∉ base) (hp : 0x2E#8 ∉ base) :
    pathStem (dir ++ base) = base := by
  have he' : ∀ c ∈ base.reverse, decide (c ≠ 0x2E#8) = true := by
    intro c hc
    rw [decide_eq_true_eq]
    rintro rfl
    exact hp (List.mem_reverse.mp hc)
  have e : (base.reverse.dropWhile (· ≠ 0x2E#8)) = [] := by
    have := List.dropWhile_append_of_pos (l₂ := []) he'
    rwa [List.append_nil] at this
  simp only [pathStem, pathFile_spec dir base hb hd, e]
  simp

/-- "/a.b/c.d.mf4" has the stem "c.d", ".." and ".mf4" are their own, a directory has none. -/
example : pathStem [0x2F#8, 0x61#8, 0x2E#8, 0x62#8, 0x2F#8, 0x63#8, 0x2E#8, 0x64#8, 0x2E#8, 0x6D#8, 0x66#8, 0x34#8] = [0x63#8, 0x2E#8, 0x64#8] ∧
    pathStem [0x2E#8, 0x2E#8] = [0x2E#8, 0x2E#8] ∧ pathStem [0x2E#8, 0x6D#8] = [0x2E#8, 0x6D#8] ∧ pathStem [0x61#8, 0x2F#8] = [] := by decide

/-- The files among the calls. -/
def NameCall.fileOf : NameCall → Option Bytes
  | .file s => some s
  | .name _ => none

theorem name_files : ∀ (fs : List Bytes) (n : FileNames), ((fs.map NameCall.file).foldl FileNames.call n).name =
    ((n.name :: fs.map pathStem).find? (· ≠ [])).getD []
  | [], n => by
    rw [List.map_nil, List.foldl_nil, List.map_nil, List.find?_cons]
    by_cases h : n.name = [] <;> simp [h]
  | f :: fs, n => by
    rw [List.map_cons, List.foldl_cons, name_files fs]
    show (((if n.name = [] then pathStem f else n.name) :: fs.map pathStem).find? _).getD [] = _
    by_cases h : n.name = []
    · rw [if_pos h, List.map_cons, List.find?_cons (a := n.name), h]
      simp
    · rw [if_neg h, List.find?_cons, List.find?_cons]
      simp [h]

theorem file_last (xs : List NameCall) (n : FileNames) : (xs.foldl FileNames.call n).filename = ((xs.filterMap NameCall.fileOf).getLast?).getD n.filename := by
  induction xs generalizing n with
  | nil => rfl
  | cons x xs ih =>
    rw [List.foldl_cons, ih]
    cases x with
    | file s =>
      show _ = ((s :: xs.filterMap NameCall.fileOf).getLast?).getD n.filename
      rw [List.getLast?_cons]
      rfl
    | name s => rfl

/-- **C123** (name): the file name is the last one set.  The name is the last one set; without one, or if that was the empty text, it is the
first stem since then that is not empty: once a name is found, other file names do not change it. -/
theorem C123_names (xs : List NameCall) (s : Bytes) (fs : List Bytes) :
    let n := (xs ++ NameCall.name s :: fs.map NameCall.file).foldl FileNames.call {}
    n.name = ((s :: fs.map pathStem).find? (· ≠ [])).getD [] ∧
    n.filename = (((xs ++ NameCall.name s :: fs.map NameCall.file).filterMap NameCall.fileOf).getLast?).getD [] ∧
    ((fs.map NameCall.file).foldl FileNames.call {}).name = ((fs.map pathStem).find? (· ≠ [])).getD [] := by
  refine ⟨?_, file_last _ _, ?_⟩
  · rw [List.foldl_append, List.foldl_cons, name_files]
    rfl
  · rw [name_files, List.find?_cons]
    rfl

/-- **C123**, finding: a file object that is given a second file name keeps the name of the first. -/
theorem C123_name_stays : (([.file [0x61#8], .file [0x62#8]] : List NameCall).foldl FileNames.call {}) = { name := [0x61#8], filename := [0x62#8] } := by
  decide

/-! ### Bus types -/

/-- The names of the bus types. -/
def busNames : List (BitVec 16 × Bytes) :=
  [(1#16, [0x43#8, 0x41#8, 0x4E#8]), (2#16, [0x4C#8, 0x49#8, 0x4E#8]), (4#16, [0x46#8, 0x6C#8, 0x65#8, 0x78#8, 0x52#8, 0x61#8, 0x79#8]),
   (8#16, [0x4D#8, 0x4F#8, 0x53#8, 0x54#8]), (16#16, [0x45#8, 0x74#8, 0x68#8, 0x65#8, 0x72#8, 0x6E#8, 0x65#8, 0x74#8])]

/-- **C123** (bus types): the text of a bus type is the names of its bits, with commas between them. -/
theorem C123_bus_text (type : BitVec 16) :
    busText type = List.intercalate [0x2C#8] ((busNames.filter fun b => type &&& b.1 ≠ 0).map (·.2)) := by
  unfold busText busPart busNames
  by_cases h1 : type &&& 1#16 = 0#16 <;> by_cases h2 : type &&& 2#16 = 0#16 <;> by_cases h3 : type &&& 4#16 = 0#16 <;> by_cases h4 : type &&& 8#16 = 0#16 <;>
    by_cases h5 : type &&& 16#16 = 0#16 <;> simp [h1, h2, h3, h4, h5, List.intercalate]

example : busText 0xFFE5#16 = [0x43#8, 0x41#8, 0x4E#8, 0x2C#8, 0x46#8, 0x6C#8, 0x65#8, 0x78#8, 0x52#8, 0x61#8, 0x79#8] := by decide

/-! ### Log messages -/

/-- The calls since the last reset. -/
def sinceReset (cs : List LogCall) : List LogCall := (cs.reverse.takeWhile (· ≠ .reset)).reverse

/-- The functions of the first kind that are in force. -/
def active1 (cs : List LogCall) : List Nat := (sinceReset cs).filterMap fun c => match c with | .add1 f => f | _ => none

/-- The functions of the second kind that are in force. -/
def active2 (cs : List LogCall) : List Nat := (sinceReset cs).filterMap fun c => match c with | .add2 f => f | _ => none

/-- The state after some calls. -/
def logState (cs : List LogCall) : LogFuncs := cs.foldl (fun s c => (s.call c).1) {}

theorem sinceReset_snoc (cs : List LogCall) (c : LogCall) : sinceReset (cs ++ [c]) = if c = .reset then [] else sinceReset cs ++ [c] := by
  unfold sinceReset
  rw [List.reverse_append, List.reverse_singleton, List.singleton_append, List.takeWhile_cons]
  by_cases h : c = .reset <;> simp [h]

theorem logState_active (cs : List LogCall) : (logState cs).first.filterMap id = active1 cs ∧ (logState cs).second.filterMap id = active2 cs := by
  induction cs using List.reverseRecOn with
  | nil => exact ⟨rfl, rfl⟩
  | append_singleton cs c ih =>
    have e : logState (cs ++ [c]) = ((logState cs).call c).1 := by rw [logState, List.foldl_append]; rfl
    unfold active1 active2 at *
    rw [e, sinceReset_snoc]
    cases c with
    | reset => exact ⟨rfl, rfl⟩
    | add1 f => simp [LogFuncs.call, ih]; rfl
    | add2 f => simp [LogFuncs.call, ih]; rfl
    | log m => simp [LogFuncs.call, ih]

theorem logRun_append (a b : List LogCall) (s : LogFuncs) : logRun (a ++ b) s = logRun a s ++ logRun b (a.foldl (fun s c => (s.call c).1) s) := by
  induction a generalizing s with
  | nil => rfl
  | cons c a ih => rw [List.cons_append, logRun, logRun, ih, List.foldl_cons, List.append_assoc]

/-- **C124**: after any calls, a message is given to every function registered since the last reset, those of the first kind first, each in the
order of registration and as often as it was registered; those of the second kind get "file:function" for the place. -/
theorem C124_delivered (a : List LogCall) (m : LogMsg) :
    logRun (a ++ [.log m]) {} = logRun a {} ++ (active1 a).map (.first · m) ++
      (active2 a).map (.second · m.severity (m.file ++ 0x3A#8 :: m.func) m.text) := by
  obtain ⟨h1, h2⟩ := logState_active a
  rw [logRun_append, List.append_assoc]
  congr 1
  show (logState a).log m ++ [] = _
  rw [List.append_nil, LogFuncs.log, ← h1, ← h2, List.map_filterMap, List.map_filterMap]
  rfl

/-- **C124**: nothing else calls a log function. -/
theorem C124_quiet (a : List LogCall) (c : LogCall) (h : ∀ m, c ≠ .log m) : logRun (a ++ [c]) {} = logRun a {} := by
  rw [logRun_append]
  cases c with
  | log m => exact absurd rfl (h m)
  | _ => exact List.append_nil _

theorem sinceReset_reset (a b : List LogCall) : sinceReset (a ++ .reset :: b) = sinceReset b := by
  unfold sinceReset
  rw [List.reverse_append, List.reverse_cons, List.append_assoc, List.singleton_append, List.takeWhile_append]
  split
  · rename_i h
    rw [List.takeWhile_cons_of_neg (by simp), List.append_nil]
    congr 1
    exact (List.takeWhile_prefix _).eq_of_length h |>.symm
  · rfl

theorem count_first (m : LogMsg) (i : Nat) (l : List Nat) : (l.map (LogGot.first · m)).count (.first i m) = l.count i := by
  induction l with
  | nil => rfl
  | cons x l ih =>
    rw [List.map_cons, List.count_cons, List.count_cons, ih]
    congr 1
    by_cases h : x = i <;> simp [h]

/-- **C124**: a function gets a message as often as it is registered, so one that is registered once gets it once; what was registered before a
reset gets nothing after it. -/
theorem C124_count (a b : List LogCall) (m : LogMsg) (id : Nat) :
    ((logState a).log m).count (.first id m) = (active1 a).count id ∧
    active1 (a ++ .reset :: b) = active1 b ∧ active2 (a ++ .reset :: b) = active2 b := by
  refine ⟨?_, ?_, ?_⟩
  · obtain ⟨h1, h2⟩ := logState_active a
    have e := C124_delivered a m
    rw [logRun_append, List.append_assoc, List.append_cancel_left_eq] at e
    change (logState a).log m ++ [] = _ at e
    rw [List.append_nil] at e
    have z : ((active2 a).map (LogGot.second · m.severity (m.file ++ 0x3A#8 :: m.func) m.text)).count (.first id m) = 0 :=
      List.count_eq_zero_of_not_mem (by simp)
    rw [e, List.count_append, count_first, z, Nat.add_zero]
  · rw [active1, sinceReset_reset]; rfl
  · rw [active2, sinceReset_reset]; rfl

/-- Two functions, one of them twice, and a message before and after a reset. -/
example : logRun [.add2 (some 1), .add1 (some 2), .add1 none, .add1 (some 2), .log ⟨[0x61#8], [0x62#8], 5, [0x63#8]⟩, .reset,
      .log ⟨[0x61#8], [0x62#8], 5, [0x63#8]⟩] {} =
    [.first 2 ⟨[0x61#8], [0x62#8], 5, [0x63#8]⟩, .first 2 ⟨[0x61#8], [0x62#8], 5, [0x63#8]⟩, .second 1 5 [0x61#8, 0x3A#8, 0x62#8] [0x63#8]] := by
  decide

/-- **C124** (console): a message is shown exactly if its severity is not below the level. -/
theorem C124_console (level severity : Nat) : logShown level severity = true ↔ level ≤ severity := by
  simp [logShown]

end Mdf
