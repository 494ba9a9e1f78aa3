import Verif.Proof.Attach
import Verif.Props.Md5
import Verif.Props.Meta

/-!
C62: attached files are listed in order and given back as they were; changed content is noticed.
-/

namespace Mdf

/-! ### The values that are written -/

theorem hfw4 (f : BitVec 16) : hasFlag f 4#16 = f.getLsbD 2 := hasFlag_bit f 2 (by decide)

/-- What the flags, the checksum and the size of an attachment become when its file is there: nothing but the checksum is added. -/
structure AtDescribes (v w : AtVals) (content : Bytes) : Prop where
  embedded : w.isEmbedded = v.isEmbedded
  compressed : w.isCompressed = v.isCompressed
  creator : w.creator = v.creator
  size : w.originalSize = BitVec.ofNat 64 content.length
  checked : w.usesMd5 = true
  checksum : w.md5 = md5Digest content

theorem addMd5_readable (v : AtVals) (f : DiskFile) (hr : f.readable = true) :
    v.addMd5 f = { v with md5 := md5Digest f.content, flags := v.flags ||| 4#16 } := by
  unfold AtVals.addMd5
  rw [if_pos hr, C61_checksum, List.flatten_singleton]

theorem or4_0 (f : BitVec 16) : hasFlag (f ||| 4#16) 1#16 = hasFlag f 1#16 := by
  rw [hfw1, hfw1, BitVec.getLsbD_or]
  simp

theorem or4_1 (f : BitVec 16) : hasFlag (f ||| 4#16) 2#16 = hasFlag f 2#16 := by
  rw [hfw2, hfw2, BitVec.getLsbD_or]
  simp

theorem or4_2 (f : BitVec 16) : hasFlag (f ||| 4#16) 4#16 = true := by
  rw [hfw4, BitVec.getLsbD_or]
  simp

/-- The condition under which a file cannot be attached in the way the settings say: it is to be compressed and is empty, or its
compressed form has more bytes than the file and more than 100. -/
def AtRefused (z : Zlib) (v : AtVals) (f : DiskFile) : Prop :=
  v.isEmbedded = true ∧ v.isCompressed = true ∧ (f.content = [] ∨ max 100 f.content.length < (z.deflate f.content).length)

theorem prepare_describes (z : Zlib) (fs : FileSys) (v : AtVals) (name : Bytes) (f : DiskFile) (h0 : v.originalSize = 0)
    (hf : fs name = some f) (hr : f.readable = true) :
    AtDescribes v (v.prepare z fs name).1 f.content ∧ ((v.prepare z fs name).2 = true ↔ ¬ AtRefused z v f) ∧
    ((v.prepare z fs name).2 = true → v.isEmbedded = true → (v.prepare z fs name).1.data =
      if v.isCompressed then z.deflate f.content else f.content) := by
  unfold AtVals.prepare
  rw [if_pos h0, hf]
  dsimp only
  rw [addMd5_readable v f hr]
  have e1 : ∀ c m o d, (AtVals.mk (v.flags ||| 4#16) c m o d).isEmbedded = v.isEmbedded := fun _ _ _ _ => or4_0 _
  have e2 : ∀ c m o d, (AtVals.mk (v.flags ||| 4#16) c m o d).isCompressed = v.isCompressed := fun _ _ _ _ => or4_1 _
  have e3 : ∀ c m o d, (AtVals.mk (v.flags ||| 4#16) c m o d).usesMd5 = true := fun _ _ _ _ => or4_2 _
  have hdesc : ∀ d, AtDescribes v (AtVals.mk (v.flags ||| 4#16) v.creator (md5Digest f.content) (BitVec.ofNat 64 f.content.length) d)
      f.content := fun d => ⟨e1 _ _ _ _, e2 _ _ _ _, rfl, rfl, e3 _ _ _ _, rfl⟩
  simp only [e1, e2, AtRefused]
  by_cases he : v.isEmbedded = true
  · by_cases hc : v.isCompressed = true
    · simp only [he, hc, Bool.and_self, if_true, atDeflate, hr, Bool.not_true, Bool.false_eq_true, if_false, true_and]
      by_cases hn : f.content = []
      · simp only [if_pos hn]
        exact ⟨hdesc _, ⟨fun h => by simp at h, fun h => absurd (Or.inl hn) h⟩, fun h => by simp at h⟩
      · simp only [if_neg hn]
        by_cases hl : (z.deflate f.content).length ≤ max 100 f.content.length
        · simp only [if_pos hl]
          refine ⟨hdesc _, ⟨fun _ h => ?_, fun _ => trivial⟩, fun _ _ => trivial⟩
          obtain h | h := h
          · exact hn h
          · omega
        · simp only [if_neg hl]
          exact ⟨hdesc _, ⟨fun h => by simp at h, fun h => absurd (Or.inr (by omega)) h⟩, fun h => by simp at h⟩
    · simp only [he, hc, Bool.and_false, Bool.false_eq_true, if_false, if_true, atLoad, hr, false_and, and_false,
        not_false_eq_true]
      by_cases hn : f.content = []
      · simp only [if_pos hn]
        exact ⟨hdesc _, trivial, fun _ _ => hn.symm⟩
      · simp only [if_neg hn]
        exact ⟨hdesc _, trivial, fun _ _ => trivial⟩
  · simp only [he, Bool.false_and, Bool.false_eq_true, if_false, false_and]
    exact ⟨hdesc _, ⟨fun _ => not_false, fun _ => trivial⟩, fun _ h => absurd h id⟩

/-! ### What a reader gets -/

/-- C62: a reader is told no content that does not have the checksum of the attachment: whatever happened to the data in the file or to
the file the attachment refers to, the content is either the one with that checksum or the call returns false. -/
theorem C62_checksum_guard (a : AtObj) (z : Zlib) (fs : FileSys) (b : Bytes) (hm : a.vals.usesMd5 = true)
    (h : a.exportData z fs = some b) : md5Digest b = a.vals.md5 := by
  unfold AtObj.exportData at h
  rw [Option.bind_eq_some_iff] at h
  obtain ⟨c, _, h⟩ := h
  rw [if_pos hm, C61_checksum, List.flatten_singleton] at h
  split at h
  · rename_i e
    cases h
    exact Option.some.inj e
  · cases h

/-- C62: content that is not embedded and has changed since, to one with another checksum, is refused. -/
theorem C62_changed_reference (a : AtObj) (z : Zlib) (fs : FileSys) (f : DiskFile) (hm : a.vals.usesMd5 = true)
    (he : a.vals.isEmbedded = false) (hf : fs a.name = some f) (hd : md5Digest f.content ≠ a.vals.md5) :
    a.exportData z fs = none := by
  cases h : a.exportData z fs with
  | none => rfl
  | some b =>
    have hg := C62_checksum_guard a z fs b hm h
    unfold AtObj.exportData at h
    rw [he] at h
    simp only [Bool.false_eq_true, if_false] at h
    rw [hf, Option.bind_some] at h
    split at h
    · rw [Option.bind_some] at h
      split at h
      · cases h
        exact absurd hg hd
      · cases h
    · cases h

/-- What is given back for an attachment that was written. -/
theorem export_written (z : Zlib) (hz : z.Ok) (fs fs' : FileSys) (v : AtVals) (name : Bytes) (f : DiskFile) (h0 : v.originalSize = 0)
    (hf : fs name = some f) (hr : f.readable = true) (hok : ¬ AtRefused z v f) (p : Nat) (n : Option Nat)
    (hsame : v.isEmbedded = true ∨ fs' name = some f) :
    (AtObj.mk p n name (v.prepare z fs name).1).exportData z fs' = some f.content := by
  obtain ⟨hd, hp, hdata⟩ := prepare_describes z fs v name f h0 hf hr
  have hdata := hdata (hp.mpr hok)
  unfold AtObj.exportData
  dsimp only
  rw [hd.embedded, hd.compressed]
  have hout : (if v.isEmbedded = true then
      if v.isCompressed = true then
        if (v.prepare z fs name).1.data = [] then none else z.inflate (v.prepare z fs name).1.data
      else some (v.prepare z fs name).1.data
    else (fs' name).bind fun f => if f.readable = true then some f.content else none) = some f.content := by
    cases he : v.isEmbedded
    · rw [he] at hsame
      obtain h | h := hsame
      · cases h
      · rw [h, if_neg (by simp), Option.bind_some, if_pos hr]
    · rw [if_pos rfl, hdata he]
      cases hc : v.isCompressed
      · rfl
      · simp only [if_true]
        rw [if_neg, hz.1]
        intro hnil
        have h1 := hz.1 f.content
        rw [hnil, hz.2] at h1
        cases h1
  rw [hout, Option.bind_some, hd.checked, if_pos rfl, C61_checksum, List.flatten_singleton, if_pos]
  rw [hd.checksum]

/-! ### New attachments -/

theorem new_vals (name : Bytes) (ops : List AtOp) : (AtObj.new name ops).vals.originalSize = 0 :=
  kept_all AtVals.apply (fun v => v.originalSize = 0) ops _ (fun o _ v hv => by cases o <;> exact hv) rfl

/-- New attachments, each with a name and settings, are added to those the header has. -/
def AtHead.addAll (h : AtHead) (new : List (Bytes × List AtOp)) : AtHead :=
  { h with objs := h.objs ++ new.map fun x => AtObj.new x.1 x.2 }

/-- The attachments of the header are in the file, linked in order. -/
def AtHead.Written (h : AtHead) : Prop := 0 < h.free ∧ AtLinked h.free h.first h.objs

/-- The attachment as the user set it, its file and what a reader of the MDF file gets: name, settings, size, checksum and the content; for
an attachment that is not embedded as long as the file is as it was. -/
structure AtFaithful (z : Zlib) (x : Bytes × List AtOp) (f : DiskFile) (a : AtObj) : Prop where
  name : a.name = x.1
  describes : AtDescribes (AtObj.new x.1 x.2).vals a.vals f.content
  content : ∀ fs' : FileSys, (AtObj.new x.1 x.2).vals.isEmbedded = true ∨ fs' x.1 = some f → a.exportData z fs' = some f.content

/-- C62, full statement: to a file whose attachments are in place new ones are added, all of existing files; then the write succeeds, a
reader lists the old ones, unchanged, and the new ones, in order, and gets of every new one what was attached. -/
def C62_Statement : Prop :=
  ∀ (z : Zlib) (fs : FileSys) (h : AtHead) (new : List (Bytes × List AtOp)), z.Ok → h.Written →
    (∀ x ∈ new, ∃ f, fs x.1 = some f ∧ f.readable = true) →
    let r := (h.addAll new).write z fs
    r.2 = false ∧ r.1.Written ∧ r.1.listed.length = h.objs.length + new.length ∧
    (r.1.listed.take h.objs.length).map AtObj.said = h.objs.map AtObj.said ∧
    ∀ i x, new[i]? = some x → ∃ f a, fs x.1 = some f ∧ r.1.listed[h.objs.length + i]? = some a ∧ AtFaithful z x f a

/-- C62, what holds: as the full statement, if no file is to be compressed that is empty or does not get smaller (`AtRefused`). -/
theorem C62_attachments_partial (z : Zlib) (fs : FileSys) (h : AtHead) (new : List (Bytes × List AtOp)) (hz : z.Ok) (hw : h.Written)
    (hfiles : ∀ x ∈ new, ∃ f, fs x.1 = some f ∧ f.readable = true ∧ ¬ AtRefused z (AtObj.new x.1 x.2).vals f) :
    let r := (h.addAll new).write z fs
    r.2 = false ∧ r.1.Written ∧ r.1.listed.length = h.objs.length + new.length ∧
    (r.1.listed.take h.objs.length).map AtObj.said = h.objs.map AtObj.said ∧
    ∀ i x, new[i]? = some x → ∃ f a, fs x.1 = some f ∧ r.1.listed[h.objs.length + i]? = some a ∧ AtFaithful z x f a := by
  have hfresh : ∀ a ∈ new.map (fun x => AtObj.new x.1 x.2), AtFresh z fs a := by
    intro a ha
    rw [List.mem_map] at ha
    obtain ⟨x, hx, rfl⟩ := ha
    obtain ⟨f, hf, hr, hok⟩ := hfiles x hx
    exact ⟨rfl, rfl, (prepare_describes z fs _ x.1 f (new_vals _ _) hf hr).2.1.mpr hok⟩
  obtain ⟨h1, h2, h3, _, h5⟩ := atPass_linked z fs h.objs (new.map fun x => AtObj.new x.1 x.2) h.free none h.first hw.1 hw.2
    (by simp) hfresh
  have hwr : ((h.addAll new).write z fs).1.Written := ⟨Nat.lt_of_lt_of_le hw.1 h2, h3⟩
  have hlist : ((h.addAll new).write z fs).1.listed = (atPass z fs h.free none (h.objs ++ new.map fun x => AtObj.new x.1 x.2)).objs :=
    listed_linked _ hwr.2
  have hlen := congrArg List.length h5
  rw [List.length_map, List.length_append, List.length_map, List.length_map, List.length_map] at hlen
  dsimp only
  rw [hlist]
  refine ⟨h1, hwr, hlen, ?_, ?_⟩
  · rw [List.map_take, h5, List.take_left' (List.length_map _)]
  · intro i x hi
    obtain ⟨f, hf, hr, hok⟩ := hfiles x (List.mem_of_getElem? hi)
    have hidx : ((atPass z fs h.free none (h.objs ++ new.map fun x => AtObj.new x.1 x.2)).objs.map AtObj.said)[h.objs.length + i]? =
        some (AtObj.ready z fs (AtObj.new x.1 x.2)) := by
      rw [h5, List.getElem?_append_right (by rw [List.length_map]; omega), List.length_map,
        show h.objs.length + i - h.objs.length = i by omega, List.getElem?_map, List.getElem?_map, hi]
      rfl
    rw [List.getElem?_map, Option.map_eq_some_iff] at hidx
    obtain ⟨a, ha, hs⟩ := hidx
    obtain ⟨p, n, nm, vs⟩ := a
    unfold AtObj.said AtObj.ready at hs
    rw [Prod.mk.injEq] at hs
    obtain ⟨hs1, hs2⟩ := hs
    dsimp only at hs1 hs2
    subst hs1 hs2
    refine ⟨f, _, hf, ha, rfl, (prepare_describes z fs _ x.1 f (new_vals _ _) hf hr).1, fun fs' hs => ?_⟩
    exact export_written z hz fs fs' _ x.1 f (new_vals _ _) hf hr hok p n hs

/-- A header without attachments in a file of 168 bytes. -/
def exHead : AtHead := ⟨0, [], 168⟩

/-- A codec that stores the bytes after one byte. -/
def storeZ : Zlib := ⟨fun b => 1#8 :: b, fun b => match b with | [] => none | _ :: t => some t⟩

theorem storeZ_ok : storeZ.Ok := ⟨fun _ => rfl, rfl⟩

/-- Two files: three bytes under the name "a", none under the name "b". -/
def exFs : FileSys := fun n =>
  if n = [97#8] then some ⟨[1, 2, 3], true⟩ else if n = [98#8] then some ⟨[], true⟩ else none

/-- Two attachments: one embedded and compressed, one embedded. -/
def exAts : List (Bytes × List AtOp) := [([97#8], [.embedded true, .compressed true]), ([98#8], [.creator 5, .embedded true])]

example : exHead.Written ∧ ∀ x ∈ exAts, ∃ f, exFs x.1 = some f ∧ f.readable = true ∧ ¬ AtRefused storeZ (AtObj.new x.1 x.2).vals f := by
  refine ⟨⟨by decide, rfl⟩, fun x hx => ?_⟩
  simp only [exAts, List.mem_cons, List.not_mem_nil, or_false] at hx
  obtain rfl | rfl := hx
  · refine ⟨⟨[1, 2, 3], true⟩, rfl, rfl, fun h => ?_⟩
    obtain h | h := h.2.2
    · cases h
    · exact absurd h (by decide)
  · exact ⟨⟨[], true⟩, rfl, rfl, fun h => absurd h.2.1 (by decide)⟩

example : (((exHead.addAll exAts).write storeZ exFs).1.listed.map fun a => (a.pos, a.name, a.vals.creator, a.exportData storeZ fun _ => none)) =
    [(168, [97#8], 0, some [1, 2, 3]), (268, [98#8], 5, some [])] := by decide +kernel

/-! ### Attachments that cannot be written -/

theorem prepare_refused (z : Zlib) (fs : FileSys) (v : AtVals) (name : Bytes) (f : DiskFile) (h0 : v.originalSize = 0)
    (hf : fs name = some f) (hr : f.readable = true) (hx : AtRefused z v f) : (v.prepare z fs name).2 = false := by
  have h := (prepare_describes z fs v name f h0 hf hr).2.1
  cases hh : (v.prepare z fs name).2
  · rfl
  · exact absurd hx (h.mp hh)

/-- A refused attachment is not written. -/
theorem write_refused (z : Zlib) (fs : FileSys) (a : AtObj) (free : Nat) (hp : a.pos = 0) (hx : (a.vals.prepare z fs a.name).2 = false) :
    a.write z fs free = ({ a with vals := (a.vals.prepare z fs a.name).1 }, free) := by
  unfold AtObj.write
  rw [if_neg (by omega)]
  dsimp only
  rw [hx]
  rfl

theorem atPass_refused (z : Zlib) (fs : FileSys) (a b : AtObj) (rest : List AtObj) (ha : a.pos = 0) (hn : a.next = none)
    (hx : (a.vals.prepare z fs a.name).2 = false) (hb : b.pos = 0) (pre : List AtObj) :
    ∀ (free : Nat) (prev : Option (Option Nat)), (atPass z fs free prev (pre ++ a :: b :: rest)).thrown = true := by
  induction pre with
  | nil =>
    intro free prev
    rw [List.nil_append, atPass, if_neg (by omega), write_refused z fs a free ha hx]
    dsimp only
    split
    · rfl
    · rw [hn, atPass, if_neg (by omega), if_pos rfl]
  | cons c pre ih =>
    intro free prev
    rw [List.cons_append, atPass]
    split
    · exact ih _ _
    · dsimp only
      split
      · rfl
      · exact ih _ _

/-- C62, finding: a refused attachment that is not the last one makes the write fail, whatever the others are: `InitMeasurement` returns
false and no block after the attachments is written. -/
theorem C62_refused_aborts (z : Zlib) (fs : FileSys) (h : AtHead) (pre post : List (Bytes × List AtOp)) (x y : Bytes × List AtOp)
    (f : DiskFile) (hf : fs x.1 = some f) (hr : f.readable = true) (hx : AtRefused z (AtObj.new x.1 x.2).vals f) :
    ((h.addAll (pre ++ x :: y :: post)).write z fs).2 = true := by
  unfold AtHead.addAll AtHead.write
  dsimp only
  rw [List.map_append, List.map_cons, List.map_cons, ← List.append_assoc]
  exact atPass_refused z fs _ _ _ rfl rfl (prepare_refused z fs _ x.1 f (new_vals _ _) hf hr hx) rfl _ _ _

theorem atPass_refused_last (z : Zlib) (fs : FileSys) (a : AtObj) (ha : a.pos = 0) (hx : (a.vals.prepare z fs a.name).2 = false)
    (old : List AtObj) : ∀ (free : Nat) (prev : Option (Option Nat)) (first : Nat), AtLinked free first old → prev ≠ some none →
    let r := atPass z fs free prev (old ++ [a])
    r.thrown = false ∧ r.free = free ∧ r.link.getD first = first ∧
      r.objs = old ++ [{ a with vals := (a.vals.prepare z fs a.name).1 }] := by
  induction old with
  | nil =>
    intro free prev first hl hp
    dsimp only
    rw [List.nil_append, atPass, if_neg (by omega), write_refused z fs a free ha hx]
    dsimp only
    rw [if_neg hp, atPass]
    have hl : first = 0 := hl
    refine ⟨rfl, rfl, ?_, rfl⟩
    rw [Option.getD_some, ha, hl]
  | cons c old ih =>
    intro free prev first hl hp
    obtain ⟨h1, h2, h3, h4, n, h5, h6⟩ := hl
    obtain ⟨i1, i2, i3, i4⟩ := ih free (some c.next) n h6 (by rw [h5]; simp)
    dsimp only
    rw [List.cons_append, atPass, if_pos h2]
    refine ⟨i1, i2, rfl, ?_⟩
    dsimp only
    rw [i4, List.cons_append]
    congr 1
    cases hlk : (atPass z fs free (some c.next) (old ++ [a])).link with
    | none => rfl
    | some l =>
      rw [hlk, Option.getD_some] at i3
      obtain ⟨cp, cn, cname, cv⟩ := c
      dsimp only at h5
      subst h5
      rw [i3]
      rfl

/-- The refused attachment after the write. -/
def refusedObj (z : Zlib) (fs : FileSys) (x : Bytes × List AtOp) : AtObj := ⟨0, none, x.1, ((AtObj.new x.1 x.2).vals.prepare z fs x.1).1⟩

theorem refused_state (z : Zlib) (fs : FileSys) (h : AtHead) (x : Bytes × List AtOp) (f : DiskFile) (hw : h.Written)
    (hf : fs x.1 = some f) (hr : f.readable = true) (hx : AtRefused z (AtObj.new x.1 x.2).vals f) :
    (h.addAll [x]).write z fs = (⟨h.first, h.objs ++ [refusedObj z fs x], h.free⟩, false) := by
  obtain ⟨h1, h2, h3, h4⟩ := atPass_refused_last z fs (AtObj.new x.1 x.2) rfl (prepare_refused z fs _ x.1 f (new_vals _ _) hf hr hx)
    h.objs h.free none h.first hw.2 (by simp)
  change ((⟨(atPass z fs h.free none (h.objs ++ [AtObj.new x.1 x.2])).link.getD h.first,
    (atPass z fs h.free none (h.objs ++ [AtObj.new x.1 x.2])).objs,
    (atPass z fs h.free none (h.objs ++ [AtObj.new x.1 x.2])).free⟩ : AtHead),
    (atPass z fs h.free none (h.objs ++ [AtObj.new x.1 x.2])).thrown) = _
  rw [h1, h2, h3, h4]
  rfl

/-- C62, finding: a refused attachment that is the last one is not in the file after `InitMeasurement`, which reports success. -/
theorem C62_refused_last (z : Zlib) (fs : FileSys) (h : AtHead) (x : Bytes × List AtOp) (f : DiskFile) (hw : h.Written)
    (hf : fs x.1 = some f) (hr : f.readable = true) (hx : AtRefused z (AtObj.new x.1 x.2).vals f) :
    ((h.addAll [x]).write z fs).2 = false ∧ ((h.addAll [x]).write z fs).1.listed = h.objs := by
  rw [refused_state z fs h x f hw hf hr hx]
  refine ⟨rfl, ?_⟩
  unfold AtHead.listed
  dsimp only
  rw [List.filter_append, List.filter_eq_self.mpr (fun a ha => by simpa using (hw.2.pos_lt a ha).1)]
  rw [List.filter_cons_of_neg (by simp [refusedObj]), List.filter_nil, List.append_nil]
  exact atFollow_linked h.objs hw.2 h.objs _ _ hw.2 (fun _ ha => ha) (by rw [List.length_append]; omega)

theorem refused_data (z : Zlib) (fs : FileSys) (v : AtVals) (name : Bytes) (f : DiskFile) (h0 : v.originalSize = 0)
    (hf : fs name = some f) (hr : f.readable = true) (hx : AtRefused z v f) : (v.prepare z fs name).1.data = [] := by
  unfold AtVals.prepare
  rw [if_pos h0, hf]
  dsimp only
  rw [addMd5_readable v f hr]
  have e1 : ∀ c m o d, (AtVals.mk (v.flags ||| 4#16) c m o d).isEmbedded = v.isEmbedded := fun _ _ _ _ => or4_0 _
  have e2 : ∀ c m o d, (AtVals.mk (v.flags ||| 4#16) c m o d).isCompressed = v.isCompressed := fun _ _ _ _ => or4_1 _
  have e4 : atDeflate z f = none := by
    unfold atDeflate
    rw [hr]
    simp only [Bool.not_true, Bool.false_eq_true, if_false]
    obtain h | h := hx.2.2
    · rw [if_pos h]
    · split
      · rfl
      · rw [if_neg (by omega)]
  simp only [e1, e2, hx.1, hx.2.1, Bool.and_self, if_true, e4]

/-- C62, finding: `FinalizeMeasurement` then writes the refused attachment of a file that is not empty without its content: a reader lists
it and cannot get the content. -/
theorem C62_refused_finalized (z : Zlib) (fs fs' : FileSys) (h : AtHead) (x : Bytes × List AtOp) (f : DiskFile) (hw : h.Written)
    (hf : fs x.1 = some f) (hr : f.readable = true) (hx : AtRefused z (AtObj.new x.1 x.2).vals f) (hn : f.content ≠ [])
    (hl : f.content.length < 2 ^ 64) :
    let r := ((h.addAll [x]).write z fs).1.write z fs
    r.2 = false ∧ ∃ a, r.1.listed[h.objs.length]? = some a ∧ a.name = x.1 ∧ a.exportData z fs' = none := by
  have hd := (prepare_describes z fs _ x.1 f (new_vals x.1 x.2) hf hr).1
  have hdata := refused_data z fs _ x.1 f (new_vals x.1 x.2) hf hr hx
  have hsize : (refusedObj z fs x).vals.originalSize ≠ 0 := by
    intro h0
    have h0 := hd.size.symm.trans h0
    have := congrArg BitVec.toNat h0
    rw [BitVec.toNat_ofNat, Nat.mod_eq_of_lt hl] at this
    exact hn (List.length_eq_zero_iff.mp this)
  have hprep : (refusedObj z fs x).vals.prepare z fs (refusedObj z fs x).name = ((refusedObj z fs x).vals, true) := by
    unfold AtVals.prepare
    rw [if_neg hsize]
  rw [refused_state z fs h x f hw hf hr hx]
  obtain ⟨h1, h2, h3, _, h5⟩ := atPass_linked z fs h.objs [refusedObj z fs x] h.free none h.first hw.1 hw.2 (by simp)
    (fun a ha => by
      rw [List.mem_singleton] at ha
      subst ha
      exact ⟨rfl, rfl, by rw [hprep]⟩)
  refine ⟨h1, ?_⟩
  have hlist : (AtHead.write ⟨h.first, h.objs ++ [refusedObj z fs x], h.free⟩ z fs).1.listed =
      (atPass z fs h.free none (h.objs ++ [refusedObj z fs x])).objs := listed_linked _ h3
  have hidx : ((atPass z fs h.free none (h.objs ++ [refusedObj z fs x])).objs.map AtObj.said)[h.objs.length]? =
      some (refusedObj z fs x).said := by
    rw [h5, List.getElem?_append_right (by rw [List.length_map]), List.length_map, Nat.sub_self]
    show some (AtObj.ready z fs (refusedObj z fs x)) = _
    unfold AtObj.ready
    rw [hprep]
    rfl
  rw [List.getElem?_map, Option.map_eq_some_iff] at hidx
  obtain ⟨a, ha, hs⟩ := hidx
  dsimp only
  rw [hlist]
  obtain ⟨p, n, nm, vs⟩ := a
  unfold AtObj.said at hs
  rw [Prod.mk.injEq] at hs
  obtain ⟨hs1, hs2⟩ := hs
  dsimp only at hs1 hs2
  refine ⟨_, ha, hs1, ?_⟩
  unfold AtObj.exportData
  dsimp only
  rw [hs2]
  have k1 : (refusedObj z fs x).vals.isEmbedded = true := hd.embedded.trans hx.1
  have k2 : (refusedObj z fs x).vals.isCompressed = true := hd.compressed.trans hx.2.1
  have k3 : (refusedObj z fs x).vals.data = [] := hdata
  rw [if_pos k1, if_pos k2, if_pos k3]
  rfl

/-- A codec that adds 101 bytes: content that does not get smaller. -/
def growZ : Zlib := ⟨fun b => List.replicate 101 0#8 ++ b, fun b => if b.length < 101 then none else some (b.drop 101)⟩

example : growZ.Ok ∧ AtRefused growZ (AtObj.new [97#8] [.embedded true, .compressed true]).vals ⟨[1, 2, 3], true⟩ := by
  refine ⟨⟨fun b => ?_, rfl⟩, rfl, rfl, Or.inr (by decide)⟩
  show (if (List.replicate 101 0#8 ++ b).length < 101 then none else some ((List.replicate 101 0#8 ++ b).drop 101)) = some b
  rw [if_neg (by rw [List.length_append, List.length_replicate]; omega), List.drop_left' (List.length_replicate)]

example : ((exHead.addAll exAts).write growZ exFs).2 = true := by decide +kernel

/-- C62: the full statement fails: an empty file, to be compressed. -/
theorem C62_full_statement_fails : ¬ C62_Statement := by
  intro hall
  have h := hall storeZ exFs exHead [([98#8], [.embedded true, .compressed true])] storeZ_ok ⟨by decide, rfl⟩
    (fun x hx => by
      rw [List.mem_singleton] at hx
      subst hx
      exact ⟨⟨[], true⟩, rfl, rfl⟩)
  exact absurd h.2.2.1 (by decide +kernel)

/-- The attachments of `C62_attachments_partial` are those of one call of `CreateAttachment` after the other. -/
theorem C62_created (h : AtHead) (new : List (Bytes × List AtOp)) :
    new.foldl (fun h x => h.add (AtObj.new x.1 x.2)) h = h.addAll new := by
  induction new generalizing h with
  | nil => simp [AtHead.addAll]
  | cons x xs ih =>
    rw [List.foldl_cons, ih]
    simp [AtHead.addAll, AtHead.add]

/-- A file that is not embedded and that is gone or cannot be read is not exported. -/
theorem C62_missing_reference (a : AtObj) (z : Zlib) (fs : FileSys) (he : a.vals.isEmbedded = false)
    (hf : fs a.name = none ∨ ∃ f, fs a.name = some f ∧ f.readable = false) : a.exportData z fs = none := by
  unfold AtObj.exportData
  rcases hf with hf | ⟨f, hf, hr⟩
  · simp [he, hf]
  · simp [he, hf, hr]

/-- A file with content that cannot be read is not embedded: the block is not written. -/
theorem C62_unreadable_refused (v : AtVals) (z : Zlib) (fs : FileSys) (name : Bytes) (f : DiskFile) (hf : fs name = some f)
    (hr : f.readable = false) (hc : f.content ≠ []) (ho : v.originalSize = 0) (he : v.isEmbedded = true) :
    (v.prepare z fs name).2 = false := by
  have e1 : ∀ n, (AtVals.isEmbedded { v.addMd5 f with originalSize := n }) = true := by
    intro n; simp only [AtVals.addMd5, hr]; exact he
  unfold AtVals.prepare
  simp only [ho, hf, if_true, e1, Bool.true_and]
  split
  · simp [atDeflate, hr]
  · simp [atLoad, hr, hc]

example : ∃ v : AtVals, v.originalSize = 0 ∧ v.isEmbedded = true := ⟨(AtObj.new [0x61] [.embedded true]).vals, by decide, by decide⟩

end Mdf
