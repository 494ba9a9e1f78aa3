import Verif.Spec.Id
import Verif.Proof.Block
import Verif.Props.Text

namespace Mdf

@[simp] theorem idNum_length (o v : BitVec 16) : (idNum o v).length = 2 := by
  unfold idNum; split <;> simp

theorem idReadNum_num (o v : BitVec 16) (rest : Bytes) : idReadNum o (idNum o v ++ rest) = some (v, rest) := by
  have hl := idNum_length o v
  unfold idReadNum
  rw [if_neg (by rw [List.length_append, hl]; omega)]
  have h1 : (idNum o v ++ rest).take 2 = idNum o v := by rw [← hl, List.take_left]
  have h2 : (idNum o v ++ rest).drop 2 = rest := by rw [← hl, List.drop_left]
  rw [h1, h2]
  have h3 : (if o ≠ 0 then beNat (idNum o v) else leNat (idNum o v)) = v.toNat := by
    unfold idNum
    have := v.isLt
    split
    · rw [beNat_beBytes, Nat.mod_eq_of_lt (by omega)]
    · rw [leNat_leBytes, Nat.mod_eq_of_lt (by omega)]
  rw [h3]
  simp

theorem idReadNum_zero (v : BitVec 16) (rest : Bytes) : idReadNum 0 (idNum 0 v ++ rest) = some (v, rest) :=
  idReadNum_num 0 v rest

/-- What is read from a text field. -/
def fieldText (t : Bytes) : Bytes := trim ((t.take 8).takeWhile (· ≠ 0#8))

theorem readStr_field (t rest : Bytes) : readStr 8 (writeStr t 8 ++ rest) = (fieldText t, rest) := by
  unfold readStr fieldText
  rw [readStrLoop_write]
  simp

theorem IdBlk.bytes_length (b : IdBlk) : b.bytes.length = 64 := by
  simp [IdBlk.bytes, writeStr_length]

theorem readId_bytes (b : IdBlk) (hb : b.byteOrder = 0) (rest : Bytes) :
    readIdBlock (b.bytes ++ rest) = some
      { b with fileId := fieldText b.fileId, format := fieldText b.format, program := fieldText b.program, inFile := true } := by
  unfold readIdBlock IdBlk.bytes
  rw [hb]
  simp only [List.append_assoc, readStr_field]
  rw [idReadNum_zero]
  simp only [Option.bind_some]
  rw [idReadNum_zero]
  simp only [Option.bind_some]
  rw [idReadNum_zero]
  simp only [Option.bind_some]
  rw [idReadNum_zero]
  simp only [Option.bind_some]
  rw [List.drop_left' (by simp), idReadNum_zero]
  simp only [Option.bind_some]
  rw [idReadNum_zero]
  simp only [Option.bind_some]

/-- The block with another mark. -/
def IdBlk.marked (b : IdBlk) (m : Bool × BitVec 16 × BitVec 16) : IdBlk :=
  { b with fileId := if m.1 then idMdf else idUnFin, stdFlags := m.2.1, customFlags := m.2.2 }

/-- The mark an operation leaves. -/
def markOf (last : Bool × BitVec 16 × BitVec 16) : IdOp → Bool × BitVec 16 × BitVec 16
  | .mark finalized std custom => if finalized then (true, 0, 0) else (false, std, custom)
  | _ => last

theorem lastMark_eq (ops : List IdOp) : lastMark ops = ops.foldl markOf (true, 0, 0) := by
  unfold lastMark
  congr 1

theorem putAt_mark (c : IdBlk) (rest : Bytes) (id : Bytes) (std custom : BitVec 16) :
    putAt (putAt (c.bytes ++ rest) 0 (writeStr id 8)) 60 (idNum c.byteOrder std ++ idNum c.byteOrder custom) =
      ({ c with fileId := id, stdFlags := std, customFlags := custom } : IdBlk).bytes ++ rest := by
  have h1 : putAt (c.bytes ++ rest) 0 (writeStr id 8) = ({ c with fileId := id } : IdBlk).bytes ++ rest := by
    unfold IdBlk.bytes
    simp only [List.append_assoc]
    rw [putAt_append_left (by simp [writeStr_length]), putAt_whole (by simp [writeStr_length])]
  rw [h1]
  generalize hd : ({ c with fileId := id } : IdBlk) = d
  have hb : c.byteOrder = d.byteOrder := by subst hd; rfl
  have e : d.bytes ++ rest = (writeStr d.fileId 8 ++ writeStr d.format 8 ++ writeStr d.program 8 ++ idNum d.byteOrder d.byteOrder ++
      idNum d.byteOrder d.floatFormat ++ idNum d.byteOrder d.version ++ idNum d.byteOrder d.codePage ++ List.replicate 28 0#8) ++
      ((idNum d.byteOrder d.stdFlags ++ idNum d.byteOrder d.customFlags) ++ rest) := by
    unfold IdBlk.bytes
    simp only [List.append_assoc]
  have e2 : ({ c with fileId := id, stdFlags := std, customFlags := custom } : IdBlk).bytes ++ rest =
     (writeStr d.fileId 8 ++ writeStr d.format 8 ++ writeStr d.program 8 ++ idNum d.byteOrder d.byteOrder ++
      idNum d.byteOrder d.floatFormat ++ idNum d.byteOrder d.version ++ idNum d.byteOrder d.codePage ++ List.replicate 28 0#8) ++
      ((idNum d.byteOrder std ++ idNum d.byteOrder custom) ++ rest) := by
    subst hd
    unfold IdBlk.bytes
    simp only [List.append_assoc]
  rw [e, e2, hb]
  generalize hp : (writeStr d.fileId 8 ++ writeStr d.format 8 ++ writeStr d.program 8 ++ idNum d.byteOrder d.byteOrder ++
      idNum d.byteOrder d.floatFormat ++ idNum d.byteOrder d.version ++ idNum d.byteOrder d.codePage ++ List.replicate 28 0#8) = p
  have hl : p.length = 60 := by subst hp; simp [writeStr_length]
  have h60 : 60 = p.length + 0 := by omega
  rw [h60, putAt_append_right, putAt_append_left (by simp), putAt_whole (by simp)]

theorem putAt_mark_le (c : IdBlk) (hc : c.byteOrder = 0) (rest : Bytes) (id : Bytes) (std custom : BitVec 16) :
    putAt (putAt (c.bytes ++ rest) 0 (writeStr id 8)) 60 (idNum 0 std ++ idNum 0 custom) =
      ({ c with fileId := id, stdFlags := std, customFlags := custom } : IdBlk).bytes ++ rest := by
  have h := putAt_mark c rest id std custom
  rw [hc] at h
  rw [h]
  simp only [hc]

theorem putAt_behind (a b : Bytes) (h : a.length = 64) (k : Nat) (bs : Bytes) :
    putAt (a ++ b) (64 + k) bs = a ++ putAt b k bs := by
  rw [← h, putAt_append_right]

/-- A format text as `MinorVersion` makes it. -/
structure GoodFormat (t : Bytes) : Prop where
  digit : ∃ c s, t = c :: s ∧ 0x30#8 ≤ c ∧ c ≤ 0x39#8
  text : fieldText t = t

/-- The format text for a version. -/
def formatText (major m : Nat) : Bytes :=
  BitVec.ofNat 8 (48 + major) :: 0x2E#8 :: (if m = 0 then [0x30#8, 0x30#8] else twoDigits m)

theorem formatText_good : ∀ major : Fin 10, ∀ m : Fin 100,
    (∃ c s, formatText major.val m.val = c :: s ∧ 0x30#8 ≤ c ∧ c ≤ 0x39#8) ∧ fieldText (formatText major.val m.val) = formatText major.val m.val := by
  have : ∀ major : Fin 10, ∀ m : Fin 100,
    (0x30#8 ≤ BitVec.ofNat 8 (48 + major.val) ∧ BitVec.ofNat 8 (48 + major.val) ≤ 0x39#8) ∧ fieldText (formatText major.val m.val) = formatText major.val m.val := by
    decide +kernel
  intro a b
  have h := this a b
  exact ⟨⟨_, _, rfl, h.1.1, h.1.2⟩, h.2⟩

theorem good_formatText {major m : Nat} (h1 : major < 10) (h2 : m < 100) : GoodFormat (formatText major m) :=
  let h := formatText_good ⟨major, h1⟩ ⟨m, h2⟩
  ⟨h.1, h.2⟩

theorem minor_lt (m : Int) : minorNumber m < 100 := by
  unfold minorNumber
  split
  · decide
  · split <;> omega

theorem minorVersion_good (b : IdBlk) (d : Byte) (s : Bytes) (hb : b.format = d :: s) (h1 : 0x30#8 ≤ d) (h2 : d ≤ 0x39#8) (m : Int) :
    b.minorVersion m = some { b with format := formatText (d.toNat - 48) (minorNumber m)
                                     version := BitVec.ofNat 16 (100 * (d.toNat - 48) + minorNumber m) } := by
  unfold IdBlk.minorVersion
  rw [hb]
  have hc : 0x30#8 ≤ d ∧ d ≤ 0x39#8 := ⟨h1, h2⟩
  dsimp only
  rw [if_pos hc]
  have e : (if m ≤ 0 then 0 else if m < 10 then m.toNat * 10 else if 100 ≤ m then m.toNat % 100 else m.toNat) = minorNumber m := by
    unfold minorNumber
    split
    · rfl
    · split
      · omega
      · split
        · rfl
        · omega
  rw [e]
  rfl

end Mdf

namespace Mdf

/-- The minor version number in force. -/
def minorInForce (dflt : Nat) : Option Int → Nat
  | none => dflt
  | some m => minorNumber m

/-- The new block `b0` after its mark, its minor version and its program identification are set. -/
def idAt (b0 : IdBlk) (major dflt : Nat) (mark : Bool × BitVec 16 × BitVec 16) (minor : Option Int) (prog : Bytes) : IdBlk :=
  { b0 with
    fileId := if mark.1 then idMdf else idUnFin
    stdFlags := mark.2.1
    customFlags := mark.2.2
    format := formatText major (minorInForce dflt minor)
    version := BitVec.ofNat 16 (100 * major + minorInForce dflt minor)
    program := prog }

def minorOf (last : Option Int) : IdOp → Option Int
  | .minor m => some m
  | _ => last

def programOf (last : Bytes) : IdOp → Bytes
  | .program t => t
  | _ => last

theorem lastMinor_eq (ops : List IdOp) : lastMinor ops = ops.foldl minorOf none := rfl
theorem lastProgram_eq (ops : List IdOp) : lastProgram ops = ops.foldl programOf idProgram := rfl

theorem minorInForce_lt {dflt : Nat} (h : dflt < 100) (m : Option Int) : minorInForce dflt m < 100 := by
  cases m with
  | none => exact h
  | some m => exact minor_lt m

theorem formatText_head (major m : Nat) (h : major < 10) : ∃ d s, formatText major m = d :: s ∧ 0x30#8 ≤ d ∧ d ≤ 0x39#8 ∧ d.toNat - 48 = major := by
  have e : (BitVec.ofNat 8 (48 + major)).toNat = 48 + major := by
    rw [BitVec.toNat_ofNat]
    omega
  refine ⟨_, _, rfl, ?_, ?_, ?_⟩
  · rw [BitVec.le_def, e]
    have : (0x30#8).toNat = 48 := rfl
    omega
  · rw [BitVec.le_def, e]
    have : (0x39#8).toNat = 57 := rfl
    omega
  · rw [e]
    omega

theorem idStep_pre (b0 : IdBlk) (h0 : b0.inFile = false) {major dflt : Nat} (hM : major < 10) (mark) (minor) (prog)
    (file : Bytes) (op : IdOp) (hw : op ≠ .write) (hr : op ≠ .reopen) :
    ∃ file', idStep (idAt b0 major dflt mark minor prog, file) op =
      some (idAt b0 major dflt (markOf mark op) (minorOf minor op) (programOf prog op), file') := by
  cases op with
  | mark f std custom =>
    refine ⟨file, ?_⟩
    have e : idAt b0 major dflt (markOf mark (.mark f std custom)) minor prog =
        ((idAt b0 major dflt mark minor prog).mark file f std custom).1 := by
      cases f <;> rfl
    have e2 : ((idAt b0 major dflt mark minor prog).mark file f std custom).2 = file := by
      unfold IdBlk.mark
      cases f
      · dsimp only
        exact if_neg (by simp [idAt, h0])
      · dsimp only
        exact if_neg (by simp [idAt, h0])
    show some ((idAt b0 major dflt mark minor prog).mark file f std custom) = some (idAt b0 major dflt (markOf mark (.mark f std custom)) minor prog, file)
    rw [e, ← e2]
    rw [e2]
    generalize hx : (idAt b0 major dflt mark minor prog).mark file f std custom = x at e2 ⊢
    cases x
    simp only at e2
    rw [e2]
  | write => exact absurd rfl hw
  | reopen => exact absurd rfl hr
  | minor m =>
    refine ⟨file, ?_⟩
    obtain ⟨d, s, hf, h1, h2, h3⟩ := formatText_head major (minorInForce dflt minor) hM
    show ((idAt b0 major dflt mark minor prog).minorVersion m).map _ = _
    rw [minorVersion_good _ d s hf h1 h2, h3]
    rfl
  | program t => exact ⟨file, rfl⟩
  | body p bs => exact ⟨_, rfl⟩

theorem idRun_pre (b0 : IdBlk) (h0 : b0.inFile = false) {major dflt : Nat} (hM : major < 10) (pre : List IdOp)
    (hw : .write ∉ pre) (hr : .reopen ∉ pre) (mark) (minor) (prog) (file : Bytes) :
    ∃ file', idRun pre (idAt b0 major dflt mark minor prog, file) =
      some (idAt b0 major dflt (pre.foldl markOf mark) (pre.foldl minorOf minor) (pre.foldl programOf prog), file') := by
  induction pre generalizing mark minor prog file with
  | nil => exact ⟨file, rfl⟩
  | cons op pre ih =>
    obtain ⟨f1, h1⟩ := idStep_pre b0 h0 (dflt := dflt) hM mark minor prog file op
      (fun h => hw (by rw [h]; exact List.mem_cons_self)) (fun h => hr (by rw [h]; exact List.mem_cons_self))
    obtain ⟨f2, h2⟩ := ih (fun h => hw (List.mem_cons_of_mem _ h)) (fun h => hr (List.mem_cons_of_mem _ h))
      (markOf mark op) (minorOf minor op) (programOf prog op) f1
    refine ⟨f2, ?_⟩
    rw [idRun, h1]
    exact h2

theorem idRun_append (a b : List IdOp) (s : IdBlk × Bytes) : idRun (a ++ b) s = (idRun a s).bind (idRun b) := by
  induction a generalizing s with
  | nil => rfl
  | cons op a ih =>
    show (idStep s op).bind (idRun (a ++ b)) = ((idStep s op).bind (idRun a)).bind (idRun b)
    rw [Option.bind_assoc]
    congr 1
    funext t
    exact ih t

/-- After the block is written: the file starts with the block `c` with the mark `m`. -/
structure IdInv (c : IdBlk) (m : Bool × BitVec 16 × BitVec 16) (s : IdBlk × Bytes) : Prop where
  file : ∃ rest, s.2 = (c.marked m).bytes ++ rest
  inFile : s.1.inFile = true
  order : s.1.byteOrder = 0
  mark : s.1.finalized = m
  digit : ∃ d t, s.1.format = d :: t ∧ 0x30#8 ≤ d ∧ d ≤ 0x39#8

theorem id_mark : ∀ f : Bool, (!(!(if f then idMdf else idUnFin).isEmpty && (if f then idMdf else idUnFin).head? == some 0x55#8)) = f := by
  decide +kernel

theorem id_mark_read : ∀ f : Bool, (!(!(fieldText (if f then idMdf else idUnFin)).isEmpty &&
    (fieldText (if f then idMdf else idUnFin)).head? == some 0x55#8)) = f := by
  decide +kernel

theorem finalized_of_id {b : IdBlk} {m : Bool × BitVec 16 × BitVec 16}
    (h : b.fileId = (if m.1 then idMdf else idUnFin) ∨ b.fileId = fieldText (if m.1 then idMdf else idUnFin))
    (h1 : b.stdFlags = m.2.1) (h2 : b.customFlags = m.2.2) : b.finalized = m := by
  obtain ⟨f, a, c⟩ := m
  unfold IdBlk.finalized
  simp only at h h1 h2
  rw [h1, h2]
  have : (!(!b.fileId.isEmpty && b.fileId.head? == some 0x55#8)) = f := by
    rcases h with h | h
    · rw [h]; exact id_mark f
    · rw [h]; exact id_mark_read f
  rw [this]

theorem idStep_post (c : IdBlk) (hc : c.byteOrder = 0) (hf : GoodFormat c.format) (m) (s : IdBlk × Bytes) (h : IdInv c m s)
    (op : IdOp) : ∃ s', idStep s op = some s' ∧ IdInv c (markOf m op) s' := by
  obtain ⟨b, file⟩ := s
  obtain ⟨⟨rest, h1⟩, h2, h3, h4, h5⟩ := h
  simp only at h1 h2 h3 h4 h5
  cases op with
  | mark f std custom =>
    refine ⟨_, rfl, ?_⟩
    cases f with
    | false =>
      refine ⟨⟨rest, ?_⟩, h2, h3, ?_, h5⟩
      · simp only [IdBlk.mark, Bool.false_eq_true, if_false, h2, if_true, markOf, h3]
        rw [h1]
        exact putAt_mark_le (c.marked m) hc rest idUnFin std custom
      · exact finalized_of_id (.inl rfl) rfl rfl
    | true =>
      refine ⟨⟨rest, ?_⟩, h2, h3, ?_, h5⟩
      · simp only [IdBlk.mark, h2, if_true, markOf, h3]
        rw [h1]
        exact putAt_mark_le (c.marked m) hc rest idMdf 0 0
      · exact finalized_of_id (.inl rfl) rfl rfl
  | write =>
    refine ⟨(b, file), ?_, ⟨rest, h1⟩, h2, h3, h4, h5⟩
    show some (b.write file) = _
    unfold IdBlk.write
    rw [if_pos h2]
  | minor k =>
    obtain ⟨d, t, e, g1, g2⟩ := h5
    refine ⟨({ b with format := formatText (d.toNat - 48) (minorNumber k)
                      version := BitVec.ofNat 16 (100 * (d.toNat - 48) + minorNumber k) }, file),
      ?_, ⟨rest, h1⟩, h2, h3, h4, ?_⟩
    · show (b.minorVersion k).map _ = _
      rw [minorVersion_good b d t e g1 g2]
      rfl
    · have hd : d.toNat - 48 < 10 := by
        rw [BitVec.le_def] at g2
        have : (0x39#8).toNat = 57 := rfl
        omega
      obtain ⟨d', t', e', a1, a2, _⟩ := formatText_head (d.toNat - 48) (minorNumber k) hd
      exact ⟨d', t', e', a1, a2⟩
  | program t => exact ⟨_, rfl, ⟨rest, h1⟩, h2, h3, h4, h5⟩
  | body p bs =>
    refine ⟨_, rfl, ⟨putAt rest p bs, ?_⟩, h2, h3, h4, h5⟩
    show putAt file (64 + p) bs = _
    rw [h1, putAt_behind _ _ (IdBlk.bytes_length _)]
    rfl
  | reopen =>
    refine ⟨({ c.marked m with fileId := fieldText (c.marked m).fileId, format := fieldText c.format, program := fieldText c.program, inFile := true }, file),
      ?_, ⟨rest, h1⟩, ?_, ?_, ?_, ?_⟩
    · show (readIdBlock file).map _ = _
      rw [h1, readId_bytes (c.marked m) hc rest]
      rfl
    · rfl
    · exact hc
    · exact finalized_of_id (.inr rfl) rfl rfl
    · show ∃ d t, fieldText c.format = d :: t ∧ _
      rw [hf.text]
      exact hf.digit

theorem idRun_post (c : IdBlk) (hc : c.byteOrder = 0) (hf : GoodFormat c.format) (post : List IdOp) (m) (s : IdBlk × Bytes)
    (h : IdInv c m s) : ∃ s', idRun post s = some s' ∧ IdInv c (post.foldl markOf m) s' := by
  induction post generalizing m s with
  | nil => exact ⟨s, rfl, h⟩
  | cons op post ih =>
    obtain ⟨s1, e1, h1⟩ := idStep_post c hc hf m s h op
    obtain ⟨s2, e2, h2⟩ := ih _ s1 h1
    refine ⟨s2, ?_, h2⟩
    rw [idRun, e1]
    exact e2

end Mdf

namespace Mdf

theorem readStrLoop_seg (seg rest acc : Bytes) :
    readStrLoop seg.length (seg ++ rest) acc = ((readStrLoop seg.length seg acc).1, rest) := by
  induction seg generalizing acc with
  | nil => rfl
  | cons c seg ih =>
    show readStrLoop (seg.length + 1) (c :: (seg ++ rest)) acc = ((readStrLoop (seg.length + 1) (c :: seg) acc).1, rest)
    simp only [readStrLoop]
    by_cases h : c = 0#8
    · rw [if_pos h, if_pos h, List.drop_left]
    · rw [if_neg h, if_neg h, ih]

theorem readStr_seg (seg rest : Bytes) (h : seg.length = 8) : readStr 8 (seg ++ rest) = ((readStr 8 seg).1, rest) := by
  unfold readStr
  rw [← h, readStrLoop_seg]

theorem readStrLoop_short (n : Nat) (file acc : Bytes) (h : file.length < n) : (readStrLoop n file acc).2 = [] := by
  induction n generalizing file acc with
  | zero => omega
  | succ n ih =>
    cases file with
    | nil =>
      simp only [readStrLoop]
      by_cases hn : n = 0
      · subst hn; rfl
      · exact ih [] _ (by simp; omega)
    | cons c file =>
      simp only [readStrLoop]
      simp only [List.length_cons] at h
      split
      · exact List.drop_eq_nil_of_le (by omega)
      · exact ih file _ (by omega)

theorem readStr_rest (file : Bytes) : (readStr 8 file).2 = file.drop 8 := by
  by_cases h : file.length < 8
  · rw [List.drop_eq_nil_of_le (by omega)]
    exact readStrLoop_short 8 file [] h
  · have e : file = file.take 8 ++ file.drop 8 := (List.take_append_drop 8 file).symm
    have hl : (file.take 8).length = 8 := by rw [List.length_take]; omega
    calc (readStr 8 file).2 = (readStr 8 (file.take 8 ++ file.drop 8)).2 := by rw [← e]
      _ = file.drop 8 := by rw [readStr_seg _ _ hl]

theorem idReadNum_some {o : BitVec 16} {file : Bytes} {r : BitVec 16 × Bytes} (h : idReadNum o file = some r) :
    2 ≤ file.length ∧ r.2 = file.drop 2 := by
  unfold idReadNum at h
  split at h
  · exact nomatch h
  · injection h with h
    rw [← h]
    exact ⟨by omega, rfl⟩

theorem readId_length {file : Bytes} {b : IdBlk} (h : readIdBlock file = some b) : 64 ≤ file.length := by
  unfold readIdBlock at h
  simp only [readStr_rest] at h
  obtain ⟨r1, h1, h⟩ := Option.bind_eq_some_iff.1 h
  obtain ⟨r2, h2, h⟩ := Option.bind_eq_some_iff.1 h
  obtain ⟨r3, h3, h⟩ := Option.bind_eq_some_iff.1 h
  obtain ⟨r4, h4, h⟩ := Option.bind_eq_some_iff.1 h
  obtain ⟨r5, h5, h⟩ := Option.bind_eq_some_iff.1 h
  obtain ⟨r6, h6, h⟩ := Option.bind_eq_some_iff.1 h
  have g1 := idReadNum_some h1
  have g2 := idReadNum_some h2
  have g3 := idReadNum_some h3
  have g4 := idReadNum_some h4
  have g5 := idReadNum_some h5
  have g6 := idReadNum_some h6
  rw [g5.2, g4.2, g3.2, g2.2, g1.2] at g6
  simp only [List.length_drop] at g6
  omega

/-- The number in two bytes. -/
def idVal (o : BitVec 16) (seg : Bytes) : BitVec 16 := BitVec.ofNat 16 (if o ≠ 0 then beNat seg else leNat seg)

theorem idReadNum_seg (o : BitVec 16) (seg rest : Bytes) (h : seg.length = 2) : idReadNum o (seg ++ rest) = some (idVal o seg, rest) := by
  unfold idReadNum idVal
  rw [if_neg (by rw [List.length_append, h]; omega)]
  have h1 : (seg ++ rest).take 2 = seg := by rw [← h, List.take_left]
  have h2 : (seg ++ rest).drop 2 = rest := by rw [← h, List.drop_left]
  rw [h1, h2]

theorem idVal_num (o v : BitVec 16) : idVal o (idNum o v) = v := by
  have h := idReadNum_num o v []
  rw [idReadNum_seg o _ _ (idNum_length o v)] at h
  injection h with h
  injection h

/-- What is read from the parts of the block. -/
def idOfParts (a f p o fp v cp s c : Bytes) : IdBlk :=
  { fileId := (readStr 8 a).1, format := (readStr 8 f).1, program := (readStr 8 p).1, byteOrder := idVal 0 o
    floatFormat := idVal (idVal 0 o) fp, version := idVal (idVal 0 o) v, codePage := idVal (idVal 0 o) cp
    stdFlags := idVal (idVal 0 o) s, customFlags := idVal (idVal 0 o) c, inFile := true }

theorem readId_parts (a f p o fp v cp r s c rest : Bytes) (ha : a.length = 8) (hf : f.length = 8) (hp : p.length = 8)
    (ho : o.length = 2) (hfp : fp.length = 2) (hv : v.length = 2) (hcp : cp.length = 2) (hr : r.length = 28)
    (hs : s.length = 2) (hc : c.length = 2) :
    readIdBlock (a ++ ((f ++ (p ++ (o ++ (fp ++ (v ++ (cp ++ r)))))) ++ ((s ++ c) ++ rest))) = some (idOfParts a f p o fp v cp s c) := by
  unfold readIdBlock
  simp only [List.append_assoc]
  rw [readStr_seg a _ ha, readStr_seg f _ hf, readStr_seg p _ hp]
  dsimp only
  rw [idReadNum_seg _ o _ ho]
  dsimp only [Option.bind_some]
  rw [idReadNum_seg _ fp _ hfp]
  dsimp only [Option.bind_some]
  rw [idReadNum_seg _ v _ hv]
  dsimp only [Option.bind_some]
  rw [idReadNum_seg _ cp _ hcp]
  dsimp only [Option.bind_some]
  rw [List.drop_left' hr, idReadNum_seg _ s _ hs]
  dsimp only [Option.bind_some]
  rw [idReadNum_seg _ c _ hc]
  rfl

/-- Cutting a list at a position. -/
theorem cut_at (n : Nat) (l : Bytes) (h : n ≤ l.length) : ∃ a b, l = a ++ b ∧ a.length = n ∧ b.length = l.length - n :=
  ⟨l.take n, l.drop n, (List.take_append_drop n l).symm, by rw [List.length_take]; omega, by rw [List.length_drop]⟩

theorem file_parts (file : Bytes) (h : 64 ≤ file.length) : ∃ a f p o fp v cp r s c rest : Bytes,
    file = a ++ ((f ++ (p ++ (o ++ (fp ++ (v ++ (cp ++ r)))))) ++ ((s ++ c) ++ rest)) ∧ a.length = 8 ∧ f.length = 8 ∧
    p.length = 8 ∧ o.length = 2 ∧ fp.length = 2 ∧ v.length = 2 ∧ cp.length = 2 ∧ r.length = 28 ∧ s.length = 2 ∧ c.length = 2 := by
  obtain ⟨a, r1, e1, a1, b1⟩ := cut_at 8 file (by omega)
  obtain ⟨f, r2, e2, a2, b2⟩ := cut_at 8 r1 (by omega)
  obtain ⟨p, r3, e3, a3, b3⟩ := cut_at 8 r2 (by omega)
  obtain ⟨o, r4, e4, a4, b4⟩ := cut_at 2 r3 (by omega)
  obtain ⟨fp, r5, e5, a5, b5⟩ := cut_at 2 r4 (by omega)
  obtain ⟨v, r6, e6, a6, b6⟩ := cut_at 2 r5 (by omega)
  obtain ⟨cp, r7, e7, a7, b7⟩ := cut_at 2 r6 (by omega)
  obtain ⟨r, r8, e8, a8, b8⟩ := cut_at 28 r7 (by omega)
  obtain ⟨s, r9, e9, a9, b9⟩ := cut_at 2 r8 (by omega)
  obtain ⟨c, rest, e10, a10, b10⟩ := cut_at 2 r9 (by omega)
  refine ⟨a, f, p, o, fp, v, cp, r, s, c, rest, ?_, a1, a2, a3, a4, a5, a6, a7, a8, a9, a10⟩
  rw [e1, e2, e3, e4, e5, e6, e7, e8, e9, e10]
  simp only [List.append_assoc]

theorem putAt_parts (a m x rest id fl : Bytes) (ha : a.length = 8) (hm : m.length = 52) (hx : x.length = 4) (hid : id.length = 8)
    (hfl : fl.length = 4) : putAt (putAt (a ++ (m ++ (x ++ rest))) 0 id) 60 fl = id ++ (m ++ (fl ++ rest)) := by
  rw [putAt_append_left (by omega), putAt_whole (by omega)]
  have e : 60 = id.length + (m.length + 0) := by omega
  rw [e, putAt_append_right, putAt_append_right, putAt_append_left (by omega), putAt_whole (by omega)]

end Mdf
