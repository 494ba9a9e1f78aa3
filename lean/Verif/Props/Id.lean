import Verif.Proof.Id

/-!
# C39: the mark of an unfinalized file, its version and its class

A history of operations on the ID block of a file is a list of `IdOp`: marking, writing, setting the minor version or the program
identification, changing the rest of the file, closing the file and reading it again.  `lastMark`, `lastMinor`, `lastProgram` and
`versionNumber` (Verif.Spec.Id) say what a reader has to find.
-/

namespace Mdf

/-- What a new reader finds in a file: it is an MDF file, it has the last mark of the whole history, and it has the version, the
version text and the program identification that were set before it was written. -/
structure IdReads (major dflt : Nat) (cls : FileClass) (pre post : List IdOp) (file : Bytes) : Prop where
  found : ∃ b, readIdBlock file = some b ∧
    b.finalized = lastMark (pre ++ post) ∧
    b.version.toNat = versionNumber major dflt (lastMinor pre) ∧
    b.format = versionText major (versionNumber major dflt (lastMinor pre) % 100) ∧
    Trimmed (((lastProgram pre).take 8).takeWhile (· ≠ 0#8)) b.program
  isMdf : isMdfFile file = true
  opened : openAs file = some cls

theorem idMdf_isMdf : ∀ f : Bool, (sameStart (trim (fieldText (if f then idMdf else idUnFin))) [0x4D#8, 0x44#8, 0x46#8] ||
  sameStart (trim (fieldText (if f then idMdf else idUnFin))) [0x55#8, 0x6E#8, 0x46#8, 0x69#8, 0x6E#8, 0x4D#8, 0x46#8]) = true := by
  decide +kernel

theorem formatText_spec : ∀ major : Fin 10, ∀ m : Fin 100, formatText major.val m.val = versionText major.val m.val := by
  decide +kernel

theorem id_history (b0 : IdBlk) (major dflt : Nat) (cls : FileClass) (hM : major < 10) (hd : dflt < 100)
    (h0 : b0.inFile = false) (ho : b0.byteOrder = 0) (hb : b0 = idAt b0 major dflt (true, 0, 0) none idProgram)
    (hcls : cls = if 4 ≤ major then .mdf4 else .mdf3) (file : Bytes)
    (pre post : List IdOp) (hw : .write ∉ pre) (hr : .reopen ∉ pre) :
    ∃ s, idRun (pre ++ .write :: post) (b0, file) = some s ∧ IdReads major dflt cls pre post s.2 := by
  obtain ⟨f1, e1⟩ := idRun_pre b0 h0 (dflt := dflt) hM pre hw hr (true, 0, 0) none idProgram file
  rw [← hb] at e1
  generalize hmk : pre.foldl markOf (true, 0, 0) = mk at e1
  generalize hmi : pre.foldl minorOf none = mi at e1
  generalize hpr : pre.foldl programOf idProgram = pr at e1
  have hfmt := good_formatText hM (minorInForce_lt hd mi)
  have hinv : IdInv (idAt b0 major dflt mk mi pr) mk ((idAt b0 major dflt mk mi pr).write f1) := by
    have e : (idAt b0 major dflt mk mi pr).write f1 =
        ({ idAt b0 major dflt mk mi pr with inFile := true }, putAt f1 0 (idAt b0 major dflt mk mi pr).bytes) := by
      unfold IdBlk.write
      exact if_neg (by simp [idAt, h0])
    rw [e]
    refine ⟨⟨f1.drop 64, ?_⟩, rfl, ho, finalized_of_id (.inl rfl) rfl rfl, hfmt.digit⟩
    have hl := IdBlk.bytes_length (idAt b0 major dflt mk mi pr)
    have hc : (idAt b0 major dflt mk mi pr).marked mk = idAt b0 major dflt mk mi pr := rfl
    rw [hc]
    show putAt f1 0 _ = _
    unfold putAt
    rw [if_neg (by intro hn; rw [hn] at hl; exact absurd hl (by decide)), hl]
    simp
  obtain ⟨s, e2, hi⟩ := idRun_post (idAt b0 major dflt mk mi pr) ho hfmt post mk _ hinv
  refine ⟨s, ?_, ?_⟩
  · rw [idRun_append, e1]
    show (idStep _ .write).bind (idRun post) = _
    exact e2
  obtain ⟨rest, hrest⟩ := hi.file
  have hread := readId_bytes ((idAt b0 major dflt mk mi pr).marked (post.foldl markOf mk)) ho rest
  rw [← hrest] at hread
  have hvlt : minorInForce dflt mi < 100 := minorInForce_lt hd mi
  have hver : (BitVec.ofNat 16 (100 * major + minorInForce dflt mi)).toNat = 100 * major + minorInForce dflt mi := by
    rw [BitVec.toNat_ofNat]
    omega
  have hmdf := idMdf_isMdf (post.foldl markOf mk).1
  have hid : ((idAt b0 major dflt mk mi pr).marked (post.foldl markOf mk)).fileId = (if (post.foldl markOf mk).1 then idMdf else idUnFin) := rfl
  refine ⟨⟨_, hread, ?_, ?_, ?_, ?_⟩, ?_, ?_⟩
  · rw [lastMark_eq, List.foldl_append, hmk]
    exact finalized_of_id (.inr rfl) rfl rfl
  · rw [lastMinor_eq, hmi]
    show (BitVec.ofNat 16 (100 * major + minorInForce dflt mi)).toNat = _
    rw [hver]
    cases mi <;> rfl
  · show fieldText (formatText major (minorInForce dflt mi)) = _
    rw [hfmt.text, lastMinor_eq, hmi]
    have e : versionNumber major dflt mi % 100 = minorInForce dflt mi := by
      have : versionNumber major dflt mi = 100 * major + minorInForce dflt mi := by cases mi <;> rfl
      omega
    rw [e]
    exact formatText_spec ⟨major, hM⟩ ⟨_, hvlt⟩
  · rw [lastProgram_eq, hpr]
    exact trim_trimmed _
  · unfold isMdfFile
    rw [hread]
    exact hmdf
  · unfold openAs
    rw [hread]
    show (if _ then _ else _) = _
    rw [if_pos (by exact hmdf), hcls]
    show some (if 400 ≤ (BitVec.ofNat 16 (100 * major + minorInForce dflt mi)).toNat then FileClass.mdf4 else .mdf3) = _
    rw [hver]
    by_cases h4 : 4 ≤ major
    · rw [if_pos h4, if_pos (by omega)]
    · rw [if_neg h4, if_neg (by omega)]

/-- **C39** for MDF 4 files.  Whatever is done with the ID block before it is written for the first time, and whatever is done
afterwards, including closing and reopening the file and writing the other blocks: no exception occurs and a new reader finds the
last mark and its flags; it finds the version and the program set before the block was written; and it opens the file as MDF 4. -/
theorem C39_history_mdf4 (pre post : List IdOp) (hw : .write ∉ pre) (hr : .reopen ∉ pre) (file : Bytes) :
    ∃ s, idRun (pre ++ .write :: post) (newId4, file) = some s ∧ IdReads 4 20 .mdf4 pre post s.2 :=
  id_history newId4 4 20 .mdf4 (by decide) (by decide) rfl rfl rfl rfl file pre post hw hr

/-- **C39** for MDF 3 files. -/
theorem C39_history_mdf3 (pre post : List IdOp) (hw : .write ∉ pre) (hr : .reopen ∉ pre) (file : Bytes) :
    ∃ s, idRun (pre ++ .write :: post) (newId3, file) = some s ∧ IdReads 3 30 .mdf3 pre post s.2 :=
  id_history newId3 3 30 .mdf3 (by decide) (by decide) rfl rfl rfl rfl file pre post hw hr

/-- A history of the theorem: marked as unfinalized, written, the rest of the file written, read by another program, finalized. -/
example : lastMark ([.mark false 3#16 9#16, .minor 1, .program [0x58#8]] ++ [.body 0 [1#8, 2#8], .reopen]) = (false, 3#16, 9#16) ∧
    lastMark ([.mark false 3#16 9#16, .minor 1, .program [0x58#8]] ++ [.body 0 [1#8, 2#8], .reopen, .mark true 1#16 1#16]) = (true, 0, 0) ∧
    versionNumber 4 20 (lastMinor [.mark false 3#16 9#16, .minor 1, .program [0x58#8]]) = 410 ∧
    versionNumber 4 20 (lastMinor [.mark false 3#16 9#16]) = 420 := by decide

/-- **C39**, the decision: a block is taken as finalized exactly when its id does not start with the letter U. -/
theorem C39_finalized_iff (b : IdBlk) : b.finalized.1 = true ↔ b.fileId.head? ≠ some 0x55#8 := by
  unfold IdBlk.finalized
  cases hb : b.fileId with
  | nil => simp
  | cons c s => simp

theorem parts_get (a a' mid x x' rest : Bytes) (ha : a.length = 8) (ha' : a'.length = 8) (hm : mid.length = 52) (hx : x.length = 4)
    (hx' : x'.length = 4) (i : Nat) (h8 : 8 ≤ i) (hi : ¬ (60 ≤ i ∧ i < 64)) :
    (a ++ (mid ++ (x ++ rest)))[i]? = (a' ++ (mid ++ (x' ++ rest)))[i]? := by
  rw [List.getElem?_append_right (l₁ := a) (by omega), List.getElem?_append_right (l₁ := a') (by omega), ha, ha']
  by_cases h60 : i < 60
  · rw [List.getElem?_append_left (by omega), List.getElem?_append_left (by omega)]
  · rw [List.getElem?_append_right (l₁ := mid) (by omega), List.getElem?_append_right (l₁ := mid) (by omega), hm]
    rw [List.getElem?_append_right (l₁ := x) (by omega), List.getElem?_append_right (l₁ := x') (by omega), hx, hx']

/-- **C39** for any file of any program, in any byte order: marking the file that was read changes the mark a new reader finds, the
other values a new reader finds stay, and so does every byte outside the id and the flags. -/
theorem C39_mark_any_file (file : Bytes) (b : IdBlk) (hread : readIdBlock file = some b) (f : Bool) (std custom : BitVec 16) :
    (∃ b', readIdBlock (b.mark file f std custom).2 = some b' ∧
      b'.finalized = (if f then (true, 0, 0) else (false, std, custom)) ∧ b'.isMdf = true ∧
      b'.format = b.format ∧ b'.program = b.program ∧ b'.byteOrder = b.byteOrder ∧ b'.floatFormat = b.floatFormat ∧
      b'.version = b.version ∧ b'.codePage = b.codePage) ∧
    (b.mark file f std custom).2.length = file.length ∧
    ∀ i, 8 ≤ i → ¬ (60 ≤ i ∧ i < 64) → (b.mark file f std custom).2[i]? = file[i]? := by
  have hlen := readId_length hread
  obtain ⟨a, fo, p, o, fp, v, cp, r, s, c, rest, e, ha, hf, hp, ho, hfp, hv, hcp, hr, hs, hc⟩ := file_parts file hlen
  have hb : b = idOfParts a fo p o fp v cp s c := by
    have h := readId_parts a fo p o fp v cp r s c rest ha hf hp ho hfp hv hcp hr hs hc
    rw [← e, hread] at h
    exact Option.some.inj h
  have hm : (b.mark file f std custom).2 =
      writeStr (if f then idMdf else idUnFin) 8 ++ ((fo ++ (p ++ (o ++ (fp ++ (v ++ (cp ++ r)))))) ++
        ((idNum b.byteOrder (if f then 0 else std) ++ idNum b.byteOrder (if f then 0 else custom)) ++ rest)) := by
    have hin : b.inFile = true := by rw [hb]; rfl
    have hq : ∀ id fl, id.length = 8 → fl.length = 4 → putAt (putAt file 0 id) 60 fl =
        id ++ ((fo ++ (p ++ (o ++ (fp ++ (v ++ (cp ++ r)))))) ++ (fl ++ rest)) := by
      intro id fl h1 h2
      rw [e]
      exact putAt_parts a _ (s ++ c) rest id fl ha (by simp [hf, hp, ho, hfp, hv, hcp, hr]) (by simp [hs, hc]) h1 h2
    cases f
    · show (if b.inFile then _ else _) = _
      rw [if_pos hin]
      exact hq _ _ (writeStr_length _ _) (by simp)
    · show (if b.inFile then _ else _) = _
      rw [if_pos hin]
      exact hq _ _ (writeStr_length _ _) (by simp)
  rw [hm]
  refine ⟨⟨_, readId_parts _ fo p o fp v cp r _ _ rest (writeStr_length _ _) hf hp ho hfp hv hcp hr (by simp) (by simp), ?_, ?_, ?_⟩, ?_, ?_⟩
  · have hbo : b.byteOrder = idVal 0 o := by rw [hb]; rfl
    have hid : (readStr 8 (writeStr (if f then idMdf else idUnFin) 8)).1 = fieldText (if f then idMdf else idUnFin) := by
      have := readStr_field (if f then idMdf else idUnFin) []
      rw [List.append_nil] at this
      rw [this]
    have h1 : ∀ x, idVal (idVal 0 o) (idNum b.byteOrder x) = x := by
      intro x
      rw [hbo, idVal_num]
    cases f
    · exact finalized_of_id (m := (false, std, custom)) (.inr hid) (h1 _) (h1 _)
    · exact finalized_of_id (m := (true, 0, 0)) (.inr hid) (h1 _) (h1 _)
  · have hid : (readStr 8 (writeStr (if f then idMdf else idUnFin) 8)).1 = fieldText (if f then idMdf else idUnFin) := by
      have := readStr_field (if f then idMdf else idUnFin) []
      rw [List.append_nil] at this
      rw [this]
    unfold IdBlk.isMdf
    show (sameStart (trim (readStr 8 (writeStr (if f then idMdf else idUnFin) 8)).1) _ ||
      sameStart (trim (readStr 8 (writeStr (if f then idMdf else idUnFin) 8)).1) _) = true
    rw [hid]
    exact idMdf_isMdf f
  · rw [hb]
    exact ⟨rfl, rfl, rfl, rfl, rfl, rfl⟩
  · rw [e]
    simp [writeStr_length, ha, hs, hc]
  · intro i h8 hi
    rw [e]
    exact parts_get _ _ _ _ _ _ (writeStr_length _ _) ha (by simp [hf, hp, ho, hfp, hv, hcp, hr]) (by simp) (by simp [hs, hc]) i h8 hi

/-- A file in big endian byte order, and one that is too short. -/
example : ∃ file b, readIdBlock file = some b ∧ b.byteOrder ≠ 0 ∧ b.finalized = (false, 0x0102#16, 0x0304#16) ∧
    b.version = 330#16 ∧ isMdfFile (file.take 63) = false := by
  refine ⟨idUnFin ++ [0x33#8, 0x2E#8, 0x33#8, 0x30#8, 0#8, 0#8, 0#8, 0#8] ++ idProgram ++
    [0#8, 1#8, 0#8, 0#8, 1#8, 0x4A#8, 0#8, 0#8] ++ List.replicate 28 0#8 ++ [1#8, 2#8, 3#8, 4#8], _, rfl, ?_⟩
  decide +kernel

/-- A change of the version after the block is in the file is not stored: the reader finds the version set before. -/
theorem C39_late_version_not_stored :
    ∃ s, idRun [.write, .minor 1] (newId4, []) = some s ∧ s.1.version = 410#16 ∧ (readIdBlock s.2).map IdBlk.version = some 420#16 := by
  refine ⟨_, rfl, ?_⟩
  decide +kernel

/-- A file shorter than the ID block is no MDF file and is not opened. -/
theorem C39_short_file (file : Bytes) (h : file.length < 64) : isMdfFile file = false ∧ openAs file = none := by
  have hn : readIdBlock file = none := by
    cases hr : readIdBlock file with
    | none => rfl
    | some b => exact absurd (readId_length hr) (by omega)
  unfold isMdfFile openAs
  rw [hn]
  exact ⟨rfl, rfl⟩

theorem sameStart_iff (s t : Bytes) :
    sameStart s t = true ↔ ∃ a rest, s = a ++ rest ∧ a.map lowerByte = t.map lowerByte := by
  unfold sameStart
  rw [beq_iff_eq]
  constructor
  · intro h
    exact ⟨_, _, (List.take_append_drop t.length s).symm, h⟩
  · rintro ⟨a, rest, rfl, h⟩
    have hl : a.length = t.length := by have := congrArg List.length h; simpa using this
    rw [← hl, List.take_left' rfl, h]

/-- Exactly the files whose first 8 bytes start, after blanks, with "MDF" or "UnFinMF" in upper or lower case are taken for MDF files;
what follows does not matter. -/
theorem C39_is_mdf (file : Bytes) (b : IdBlk) (hread : readIdBlock file = some b) :
    isMdfFile file = true ↔ ∃ a rest, trim b.fileId = a ++ rest ∧
      (a.map lowerByte = [0x6D#8, 0x64#8, 0x66#8] ∨ a.map lowerByte = [0x75#8, 0x6E#8, 0x66#8, 0x69#8, 0x6E#8, 0x6D#8, 0x66#8]) := by
  unfold isMdfFile
  rw [hread]
  show IdBlk.isMdf b = true ↔ _
  unfold IdBlk.isMdf
  rw [Bool.or_eq_true, sameStart_iff, sameStart_iff]
  have h1 : List.map lowerByte [0x4D#8, 0x44#8, 0x46#8] = [0x6D#8, 0x64#8, 0x66#8] := by decide
  have h2 : List.map lowerByte [0x55#8, 0x6E#8, 0x46#8, 0x69#8, 0x6E#8, 0x4D#8, 0x46#8] =
      [0x75#8, 0x6E#8, 0x66#8, 0x69#8, 0x6E#8, 0x6D#8, 0x66#8] := by decide
  rw [h1, h2]
  constructor
  · rintro (⟨a, rest, e, h⟩ | ⟨a, rest, e, h⟩)
    · exact ⟨a, rest, e, .inl h⟩
    · exact ⟨a, rest, e, .inr h⟩
  · rintro ⟨a, rest, e, h | h⟩
    · exact .inl ⟨a, rest, e, h⟩
    · exact .inr ⟨a, rest, e, h⟩

/-- "mDf42   " is taken for an MDF file, "MD F    " is not. -/
example : isMdfFile ([0x6D#8, 0x44#8, 0x66#8, 0x34#8, 0x32#8, 0x20#8, 0x20#8, 0x20#8] ++ List.replicate 56 0#8) = true ∧
    isMdfFile ([0x4D#8, 0x44#8, 0x20#8, 0x46#8, 0x20#8, 0x20#8, 0x20#8, 0x20#8] ++ List.replicate 56 0#8) = false := by
  decide +kernel

end Mdf
