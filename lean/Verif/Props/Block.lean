import Verif.Proof.TreeRead
import Verif.Model.BlockKinds

/-!
# The blocks of a file

C26: blocks are aligned and never overlap.  C27: block headers read back.  C28: lists and trees of blocks read back.
-/

namespace Mdf

variable {I : Nat → Info}

/-- A file in which none of the blocks of the program is written: after the identification block was written, or an existing file
that is opened for appending. -/
structure Opened (S : FileSt) (file : Bytes) : Prop where
  data : S.data = file
  ne : file ≠ []
  unwritten : ∀ id, S.pos id = 0

theorem Opened.inv {S : FileSt} {file : Bytes} (h : Opened S file) : FileInv I S :=
  ⟨fun id hp => by rw [h.unwritten] at hp; omega, fun a _ _ ha => by rw [h.unwritten] at ha; omega⟩

theorem Opened.keeps {S : FileSt} {file : Bytes} (h : Opened S file) : Keeps file.length file S :=
  ⟨by rw [h.data]; omega, fun q _ => by rw [h.data], fun id hp => by rw [h.unwritten] at hp; omega⟩

/-- C26: however blocks are written, whatever links are set, values changed and sample data appended, in any order: every block in
the file stands at a position divisible by 8, within the file, behind the identification block (or what the file held before);
two blocks never share a byte; and the bytes the file held before are unchanged. -/
theorem C26_aligned_and_disjoint {S : FileSt} {file : Bytes} (h : Opened S file) (ops : List BOp) (ha : AllowedRun I S ops) :
    (∀ id, 0 < (S.run I ops).pos id → (S.run I ops).pos id % 8 = 0 ∧ file.length ≤ (S.run I ops).pos id ∧
      (S.run I ops).pos id + (S.run I ops).size id ≤ (S.run I ops).data.length) ∧
    (∀ a b, a ≠ b → 0 < (S.run I ops).pos a → 0 < (S.run I ops).pos b → ∀ q,
      ¬ ((S.run I ops).pos a ≤ q ∧ q < (S.run I ops).pos a + (S.run I ops).size a ∧
         (S.run I ops).pos b ≤ q ∧ q < (S.run I ops).pos b + (S.run I ops).size b)) ∧
    (∀ q, q < file.length → (S.run I ops).data[q]? = file[q]?) := by
  have hd : S.data ≠ [] := by rw [h.data]; exact h.ne
  have hi := (brun_inv (I := I) S ops h.inv hd ha).1
  have hk := brun_keeps (I := I) S ops h.inv hd ha h.keeps
  refine ⟨fun id hp => ⟨(hi.mirror id hp).aligned, hk.behind id hp, (hi.mirror id hp).inside⟩, ?_, hk.same⟩
  intro a b hab h1 h2 q
  rcases hi.disjoint a b hab h1 h2 with h | h <;> omega

theorem behind_everything (T : FileSt) (id : Nat) (hn : T.pos id = 0) (hd : T.data ≠ []) :
    T.data.length ≤ (T.writeSelf I id).pos id ∧ (T.writeSelf I id).pos id < T.data.length + 8 ∧ (T.writeSelf I id).pos id % 8 = 0 ∧
    (∀ q, q < T.data.length → (T.writeSelf I id).data[q]? = T.data[q]?) ∧
    (T.writeSelf I id).data.length = (T.writeSelf I id).pos id + (T.writeSelf I id).size id := by
  have hp := pad8_length T.data
  obtain ⟨hst, _, hdat, _⟩ := writeSelf_append (I := I) T id hn hd
  have hpos : (T.writeSelf I id).pos id = (pad8 T.data).length := by unfold FileSt.pos; rw [hst]; rfl
  have hsz : (T.writeSelf I id).size id = 24 + 8 * (T.st id).links.length + (T.st id).body.length := by unfold FileSt.size; rw [hst]; rfl
  refine ⟨by omega, by omega, by omega, ?_, ?_⟩
  · intro q hq
    rw [hdat]
    unfold appendedData
    rw [List.append_assoc, List.getElem?_append_left (by omega)]
    unfold pad8
    rw [List.getElem?_append_left hq]
  · rw [hdat, hpos, hsz]
    unfold appendedData
    simp only [List.length_append, headerBytes_length]
    omega

/-- C26: a block that is written for the first time goes behind everything that is in the file, less than 8 bytes behind its end,
and nothing that was in the file changes. -/
theorem C26_written_behind_everything {S : FileSt} {file : Bytes} (h : Opened S file) (ops : List BOp) (ha : AllowedRun I S ops)
    (id : Nat) (hn : (S.run I ops).pos id = 0) :
    let T := S.run I ops
    let T' := T.writeSelf I id
    T.data.length ≤ T'.pos id ∧ T'.pos id < T.data.length + 8 ∧ T'.pos id % 8 = 0 ∧
    (∀ q, q < T.data.length → T'.data[q]? = T.data[q]?) ∧
    T'.data.length = T'.pos id + T'.size id := by
  have hd : S.data ≠ [] := by rw [h.data]; exact h.ne
  exact behind_everything (S.run I ops) id hn (brun_inv (I := I) S ops h.inv hd ha).2

theorem header_of {U : FileSt} (hU : FileInv I U) (hl : U.data.length < 2 ^ 63) {j : Nat} (hj : 0 < U.pos j) (hty : TypeOk (I j).ty)
    (hjl : ∀ l ∈ (U.st j).links, l < 2 ^ 64) :
    (readHeader U.data (U.pos j)).map (·.1) = some ⟨(I j).ty, U.size j, (U.st j).links⟩ := by
  have hm := hU.mirror j hj
  have hin := hm.inside
  have hlen := hm.len
  have hsz : U.size j = 24 + 8 * (U.st j).links.length + (U.st j).body.length := rfl
  rw [readHeader_append hty (by omega) (by omega) hjl hm.header, hlen]
  rfl

/-- C27: for every block in the file, its header read from its position tells the type of its class, its true size and the links
of the block object, whatever was written in between: other blocks, links of this or other blocks, values, sample data. -/
theorem C27_header_read_back {S : FileSt} {file : Bytes} (h : Opened S file) (ops : List BOp) (ha : AllowedRun I S ops)
    (id : Nat) (hp : 0 < (S.run I ops).pos id) (hty : TypeOk (I id).ty) (hsize : (S.run I ops).data.length < 2 ^ 63)
    (hl : ∀ l ∈ ((S.run I ops).st id).links, l < 2 ^ 64) :
    (readHeader (S.run I ops).data ((S.run I ops).pos id)).map (·.1) =
      some ⟨(I id).ty, (S.run I ops).size id, ((S.run I ops).st id).links⟩ :=
  header_of (brun_inv (I := I) S ops h.inv (by rw [h.data]; exact h.ne) ha).1 hsize hp hty hl

theorem updateLink_length {T : FileSt} (hinv : FileInv I T) {id i : Nat} (v : Nat) (hp : 0 < T.pos id) (hi : i < (T.st id).links.length) :
    (T.updateLink id i v).data.length = T.data.length := by
  unfold FileSt.updateLink
  rw [if_neg (by omega)]
  split
  · rfl
  · simp only
    have hin := (hinv.mirror id hp).inside
    unfold FileSt.size at hin
    rw [putAt_length (by omega), leBytes_length]
    omega

theorem updateLink_headers {T : FileSt} (hinv : FileInv I T) {id i v : Nat} (hp : 0 < T.pos id) (hi : i < (T.st id).links.length)
    (hv : v < 2 ^ 64) (hty : ∀ j, TypeOk (I j).ty) (hsize : T.data.length < 2 ^ 63) (hl : ∀ j, ∀ l ∈ (T.st j).links, l < 2 ^ 64) :
    (readHeader (T.updateLink id i v).data (T.pos id)).map (·.1) =
      (readHeader T.data (T.pos id)).map (fun r => { r.1 with links := r.1.links.set i v }) ∧
    (∀ j, j ≠ id → 0 < T.pos j →
      (readHeader (T.updateLink id i v).data (T.pos j)).map (·.1) = (readHeader T.data (T.pos j)).map (·.1)) := by
  have hinv' := updateLink_inv T id i v hinv
  have hdl := updateLink_length hinv v hp hi
  have hpos := fun j => updateLink_pos T id i v j
  have hsz := fun j => updateLink_size T id i v j
  have hlinks : ((T.updateLink id i v).st id).links = (T.st id).links.set i v := by rw [updateLink_st_same T id i v hi]
  constructor
  · have a := header_of hinv hsize hp (hty id) (hl id)
    have b := header_of hinv' (by omega) (j := id) (by rw [hpos]; exact hp) (hty id) (by
      rw [hlinks]
      intro l hm
      rcases List.mem_or_eq_of_mem_set hm with h | h
      · exact hl id l h
      · rw [h]; exact hv)
    rw [hpos, hsz, hlinks] at b
    rw [b]
    obtain ⟨r, hr, hr'⟩ := Option.map_eq_some_iff.1 a
    rw [hr, Option.map_some, hr']
  · intro j hj hjp
    have a := header_of hinv hsize hjp (hty j) (hl j)
    have hso := updateLink_st_other T id i v hj
    have b := header_of hinv' (by omega) (j := j) (by rw [hpos]; exact hjp) (hty j) (by rw [hso]; exact hl j)
    rw [hpos, hsz, hso] at b
    rw [a, b]

/-- C27: after a link update the header of the block in the file has that link changed and nothing else, and the headers of all other
blocks in the file are as before. -/
theorem C27_update_changes_one_link {S : FileSt} {file : Bytes} (h : Opened S file) (ops : List BOp) (ha : AllowedRun I S ops)
    (id i v : Nat) (hp : 0 < (S.run I ops).pos id) (hi : i < ((S.run I ops).st id).links.length) (hv : v < 2 ^ 64)
    (hty : ∀ j, TypeOk (I j).ty) (hsize : (S.run I ops).data.length < 2 ^ 63)
    (hl : ∀ j, ∀ l ∈ ((S.run I ops).st j).links, l < 2 ^ 64) :
    let T := S.run I ops
    let T' := T.updateLink id i v
    T'.thrown = T.thrown ∧ T'.data.length = T.data.length ∧
    (readHeader T'.data (T.pos id)).map (·.1) =
      (readHeader T.data (T.pos id)).map (fun r => { r.1 with links := r.1.links.set i v }) ∧
    (∀ j, j ≠ id → 0 < T.pos j → (readHeader T'.data (T.pos j)).map (·.1) = (readHeader T.data (T.pos j)).map (·.1)) := by
  have hinv := (brun_inv (I := I) S ops h.inv (by rw [h.data]; exact h.ne) ha).1
  exact ⟨updateLink_thrown _ id i v hi, updateLink_length hinv v hp hi, updateLink_headers hinv hp hi hv hty hsize hl⟩

/-- C28: a tree of blocks (a list, the lists of its members, comments, texts, ...) that was written to the file and, any number of
times, changed and written again — blocks added at the ends of lists, counters and other rewritable values changed, sample data
appended — is read back as it is: all blocks, in the order of the lists, with their types and values.  The writer threw no
exception. -/
theorem C28_tree_read_back {Sc : Schema} {S : FileSt} {n : Node} (h : Session I S n) (hfit : NodeFits I Sc n)
    (hsize : S.data.length < 2 ^ 63) (fuel : Nat) (hfuel : n.ids.length ≤ fuel) :
    S.thrown = false ∧
    ∃ next, readNode Sc S.data fuel (I n.id).kind (S.pos n.id) = .ok (n.view I S.bodies, next) := by
  obtain ⟨i1, _, i3, i4, i5, _⟩ := h.ok
  exact ⟨i3, _, readNode_ok i1 hsize n fuel false hfuel i4 i5 hfit⟩

/-- C28: writing does not change the values of the block objects, so what is read is what the user put in. -/
theorem C28_write_keeps_values {S : FileSt} {n : Node} (h : FileInv I S) (hd : S.data ≠ []) (hs : NodeShape I false n)
    (hn : n.ids.Nodup) (hf : NodeFresh S n) : (writeNode I S n).bodies = S.bodies := by
  funext id
  exact (writeNode_spec n S false h hd hs hn (Or.inl hf)).post.body id

/-- C28: the same for the second and later times. -/
theorem C28_rewrite_keeps_values {S S' : FileSt} {n n' : Node} (h : Session I S n) (he : Edited I S n S' n')
    (hs : NodeShape I false n') (hn : n'.ids.Nodup) : (writeNode I S' n').bodies = S'.bodies := by
  obtain ⟨i1, i2, _, i4, _, i6⟩ := h.ok
  obtain ⟨bs, hbs⟩ := he.data
  have ok := NodeOk.grown (he.quiet i1) _ _ (fun j _ hj => hj) i6 i4 he.grown
  funext id
  exact (writeNode_spec n' S' false (he.inv i1) (by rw [hbs]; simp [i2]) hs hn (Or.inr ok)).post.body id

/-- C28: the case of one list: a block with a list of `k` blocks without further blocks below, for any `k`. -/
theorem C28_list_read_back {S : FileSt} {root : Nat} {s : Slot} {kids : List Nat}
    (h : FileInv I S) (hd : S.data ≠ []) (ht : S.thrown = false)
    (hfresh : ∀ id ∈ root :: kids, S.pos id = 0 ∧ (S.st id).links = []) (hnd : (root :: kids).Nodup)
    (hs : s.chain = true) (hidx : s.index < (I root).nlinks)
    (hty : ∀ id ∈ root :: kids, TypeOk (I id).ty) (hrefs : ∀ id ∈ root :: kids, (I id).refs = [])
    (hk : ∀ id ∈ kids, (I id).kind = s.kind ∧ 0 < (I id).nlinks)
    {Sc : Schema} (hroot : Sc (I root).kind = [s]) (hkind : Sc s.kind = []) :
    let n := Node.mk root .nil (.cons s (kids.foldr (fun id l => .cons (.mk id .nil .nil) l) .nil) .nil)
    let S' := writeNode I S n
    S'.data.length < 2 ^ 63 → S'.thrown = false ∧ ∃ next,
      readNode Sc S'.data (kids.length + 1) (I root).kind (S'.pos root) =
        .ok (.mk (I root).ty (S.st root).body [kids.map fun id => .mk (I id).ty (S.st id).body []], next) := by
  intro n S' hsize
  have hids : ∀ l : List Nat, (l.foldr (fun id l => Kids.cons (.mk id .nil .nil) l) .nil).ids = l := by
    intro l
    induction l with
    | nil => rfl
    | cons a l ih => simp [Kids.ids, Node.ids, Slots.ids, ih]
  have hnids : n.ids = root :: kids := by simp [n, Node.ids, Slots.ids, hids]
  have hkfresh : ∀ l : List Nat, (∀ id ∈ l, S.pos id = 0 ∧ (S.st id).links = []) →
      KidsFresh S (l.foldr (fun id l => Kids.cons (.mk id .nil .nil) l) .nil) := by
    intro l
    induction l with
    | nil => intro _; trivial
    | cons a l ih =>
      intro hl
      simp only [List.foldr_cons, KidsFresh, NodeFresh]
      exact ⟨⟨(hl a (by simp)).1, (hl a (by simp)).2, trivial, trivial⟩, ih (fun id hid => hl id (by simp [hid]))⟩
  have hkshape : ∀ l : List Nat, (∀ id ∈ l, TypeOk (I id).ty ∧ (I id).refs = [] ∧ (I id).kind = s.kind ∧ 0 < (I id).nlinks) →
      KidsShape I s (l.foldr (fun id l => Kids.cons (.mk id .nil .nil) l) .nil) := by
    intro l
    induction l with
    | nil => intro _; trivial
    | cons a l ih =>
      intro hl
      obtain ⟨a1, a2, a3, a4⟩ := hl a (by simp)
      simp only [List.foldr_cons, KidsShape, NodeShape, Slots.indices, Node.id, hs]
      refine ⟨⟨a1, fun _ => a4, by simp, by simp, by simp [a2], trivial, trivial⟩, a3, by simp, ih (fun id hid => hl id (by simp [hid]))⟩
  have hkfits : ∀ l : List Nat, (∀ id ∈ l, (I id).kind = s.kind) →
      KidsFits I Sc (l.foldr (fun id l => Kids.cons (.mk id .nil .nil) l) .nil) := by
    intro l
    induction l with
    | nil => intro _; trivial
    | cons a l ih =>
      intro hl
      simp only [List.foldr_cons, KidsFits, NodeFits, SlotsFits, Slots.slots]
      refine ⟨⟨by rw [hl a (by simp), hkind]; rfl, trivial, trivial⟩, ih (fun id hid => hl id (by simp [hid]))⟩
  have hkviews : ∀ (f : Nat → Bytes) (l : List Nat), (l.foldr (fun id l => Kids.cons (.mk id .nil .nil) l) .nil).views I f =
      l.map fun id => .mk (I id).ty (f id) [] := by
    intro f l
    induction l with
    | nil => rfl
    | cons a l ih => simp [Kids.views, Node.view, Slots.views, ih]
  have hfr : NodeFresh S n := by
    simp only [n, NodeFresh, SlotsFresh]
    exact ⟨(hfresh root (by simp)).1, (hfresh root (by simp)).2, trivial, hkfresh kids (fun id hid => hfresh id (by simp [hid])), trivial⟩
  have hsh : NodeShape I false n := by
    simp only [n, NodeShape, SlotsShape, Slots.indices]
    refine ⟨hty root (by simp), by simp, by simp, ?_, by simp, trivial, ?_, trivial⟩
    · intro i hi
      simp only [List.nil_append, List.mem_singleton] at hi
      subst hi
      exact ⟨hidx, by simp, by rw [hrefs root (by simp)]; simp⟩
    · exact hkshape kids (fun id hid => ⟨hty id (by simp [hid]), hrefs id (by simp [hid]), hk id hid⟩)
  have hnn : n.ids.Nodup := by rw [hnids]; exact hnd
  have hfit : NodeFits I Sc n := by
    simp only [n, NodeFits, SlotsFits, Slots.slots]
    exact ⟨by rw [hroot]; rfl, trivial, hkfits kids (fun id hid => (hk id hid).1), trivial⟩
  have hses : Session I S' n := Session.first h hd ht hfr hsh hnn
  obtain ⟨r1, next, r2⟩ := C28_tree_read_back (Sc := Sc) hses hfit hsize (kids.length + 1) (by rw [hnids]; simp)
  refine ⟨r1, next, ?_⟩
  have hv := C28_write_keeps_values h hd hsh hnn hfr
  show readNode Sc S'.data (kids.length + 1) (I root).kind (S'.pos root) = _
  have e : (I n.id).kind = (I root).kind := rfl
  have e2 : S'.pos n.id = S'.pos root := rfl
  rw [e, e2] at r2
  rw [r2]
  have hv' : S'.bodies = S.bodies := hv
  rw [hv']
  simp only [n, Node.view, Slots.views, hkviews, List.nil_append]
  rfl

/-! ## A cyclic list -/

/-- A file with one block of type `##FH` whose link 0 leads to itself (as the next block of a list). -/
def cyclicFile : Bytes :=
  List.replicate 64 0x20#8 ++ headerBytes [0x23, 0x23, 0x46, 0x48] 32 [64]

/-- C28 does not extend to damaged files: a list of blocks whose last block leads back to the first is read without end. -/
theorem C28_cyclic_list_never_ends (Sc : Schema) (kind f : Nat) (hk : Sc kind = []) (fuel : Nat) :
    readChain (readNode Sc cyclicFile (f + 1) kind) fuel 64 = .hang := by
  have hh : readHeader cyclicFile 64 = some (⟨[0x23, 0x23, 0x46, 0x48], 32, [64]⟩, []) := by decide +kernel
  have h1 : readNode Sc cyclicFile (f + 1) kind 64 = .ok (.mk [0x23, 0x23, 0x46, 0x48] [] [], 64) := by
    rw [readNode_succ Sc cyclicFile f kind 64 hh (by decide) (kids := []) (by rw [hk]; rfl)]
    rfl
  induction fuel with
  | zero => rfl
  | succ fuel ih =>
    rw [readChain, if_pos (by decide), h1]
    simp only [FinRes.bind]
    rw [ih]
    rfl

/-! ## Deciding the hypotheses for examples -/

instance (ty : Bytes) : Decidable (TypeOk ty) :=
  decidable_of_iff (ty.length ≤ 4 ∧ (∀ c ∈ ty, c ≠ 0#8) ∧ (∀ c ∈ ty.head?, isSpace c = false) ∧ (∀ c ∈ ty.getLast?, isSpace c = false))
    ⟨fun h => ⟨h.1, h.2.1, h.2.2.1, h.2.2.2⟩, fun h => ⟨h.1, h.2, h.3, h.4⟩⟩

mutual
def decNodeShape (I : Nat → Info) (c : Bool) : (n : Node) → Decidable (NodeShape I c n)
  | .mk id pre post => by
    have := decSlotsShape I pre
    have := decSlotsShape I post
    unfold NodeShape; infer_instance
def decSlotsShape (I : Nat → Info) : (l : Slots) → Decidable (SlotsShape I l)
  | .nil => isTrue trivial
  | .cons s kids rest => by
    have := decKidsShape I s kids
    have := decSlotsShape I rest
    unfold SlotsShape; infer_instance
def decKidsShape (I : Nat → Info) (s : Slot) : (l : Kids) → Decidable (KidsShape I s l)
  | .nil => isTrue trivial
  | .cons n rest => by
    have := decNodeShape I s.chain n
    have := decKidsShape I s rest
    unfold KidsShape; infer_instance
end

mutual
def decNodeFresh (S : FileSt) : (n : Node) → Decidable (NodeFresh S n)
  | .mk id pre post => by
    have := decSlotsFresh S pre
    have := decSlotsFresh S post
    unfold NodeFresh; infer_instance
def decSlotsFresh (S : FileSt) : (l : Slots) → Decidable (SlotsFresh S l)
  | .nil => isTrue trivial
  | .cons s kids rest => by
    have := decKidsFresh S kids
    have := decSlotsFresh S rest
    unfold SlotsFresh; infer_instance
def decKidsFresh (S : FileSt) : (l : Kids) → Decidable (KidsFresh S l)
  | .nil => isTrue trivial
  | .cons n rest => by
    have := decNodeFresh S n
    have := decKidsFresh S rest
    unfold KidsFresh; infer_instance
end

mutual
def decNodeFits (I : Nat → Info) (Sc : Schema) : (n : Node) → Decidable (NodeFits I Sc n)
  | .mk id pre post => by
    have := decSlotsFits I Sc pre
    have := decSlotsFits I Sc post
    unfold NodeFits; infer_instance
def decSlotsFits (I : Nat → Info) (Sc : Schema) : (l : Slots) → Decidable (SlotsFits I Sc l)
  | .nil => isTrue trivial
  | .cons s kids rest => by
    have := decKidsFits I Sc kids
    have := decSlotsFits I Sc rest
    unfold SlotsFits; infer_instance
def decKidsFits (I : Nat → Info) (Sc : Schema) : (l : Kids) → Decidable (KidsFits I Sc l)
  | .nil => isTrue trivial
  | .cons n rest => by
    have := decNodeFits I Sc n
    have := decKidsFits I Sc rest
    unfold KidsFits; infer_instance
end

instance (I : Nat → Info) (c : Bool) (n : Node) : Decidable (NodeShape I c n) := decNodeShape I c n
instance (S : FileSt) (n : Node) : Decidable (NodeFresh S n) := decNodeFresh S n
instance (I : Nat → Info) (Sc : Schema) (n : Node) : Decidable (NodeFits I Sc n) := decNodeFits I Sc n

/-! ## Example: a file with header, file history, two data groups, groups and channels -/

/-- "##" and two letters. -/
def exTy (a b : Byte) : Bytes := [0x23, 0x23, a, b]

/-- The blocks: 1 header, 2 file history, 3 its comment, 4 data group, 5 channel group, 6 and 7 channels, 8 name of a channel,
9 data block, 10 data group added later. -/
def exInfo : Nat → Info
  | 1 => ⟨kHd, exTy 0x48 0x44, 6, [(0, 32)], []⟩
  | 2 => ⟨kFh, exTy 0x46 0x48, 2, [], []⟩
  | 3 => ⟨kTx, exTy 0x4D 0x44, 0, [], []⟩
  | 4 => ⟨kDg, exTy 0x44 0x47, 4, [], []⟩
  | 5 => ⟨kCg, exTy 0x43 0x47, 6, [(8, 8)], []⟩
  | 6 => ⟨kCn, exTy 0x43 0x4E, 8, [], []⟩
  | 7 => ⟨kCn, exTy 0x43 0x4E, 8, [], []⟩
  | 8 => ⟨kTx, exTy 0x54 0x58, 0, [], []⟩
  | 9 => ⟨kDt, exTy 0x44 0x54, 0, [], []⟩
  | _ => ⟨kDg, exTy 0x44 0x47, 4, [], []⟩

theorem exInfo_type (j : Nat) : TypeOk (exInfo j).ty := by
  have : ∀ a b : Byte, a ≠ 0 → b ≠ 0 → isSpace b = false → TypeOk (exTy a b) := by
    intro a b ha hb hs
    refine ⟨by simp [exTy], ?_, ?_, ?_⟩
    · intro c hc
      simp only [exTy, List.mem_cons, List.not_mem_nil, or_false] at hc
      rcases hc with h | h | h | h
      · subst h; decide
      · subst h; decide
      · subst h; exact ha
      · subst h; exact hb
    · intro c hc; simp [exTy] at hc; subst hc; decide
    · intro c hc; simp [exTy] at hc; subst hc; exact hs
  unfold exInfo
  split <;> exact this _ _ (by decide) (by decide) (by decide)

def exFile : FileSt := ⟨List.replicate 64 0x20#8, fun id => ⟨0, 0, [], List.replicate (if id = 9 then 0 else 8 * id) (BitVec.ofNat 8 id)⟩, false⟩

theorem exFile_opened : Opened exFile (List.replicate 64 0x20#8) := ⟨rfl, by decide, fun _ => rfl⟩

/-- A link without blocks. -/
def noKids (ss : List Slot) : Slots := ss.foldr (fun s l => .cons s .nil l) .nil

def exOne (n : Node) : Kids := .cons n .nil

def exCn (id : Nat) (name : Kids) : Node :=
  .mk id (.cons (listSlot 1 kCn .never) .nil (.cons (textSlot 2) name
    (noKids [oneSlot 3 kSi, oneSlot 4 (kCc 0), oneSlot 6 kTx, textSlot 7]))) .nil

def exCg : Node :=
  .mk 5 (.cons (listSlot 1 kCn .never) (.cons (exCn 6 (exOne (.mk 8 .nil .nil))) (.cons (exCn 7 .nil) .nil))
    (noKids [textSlot 2, oneSlot 3 kSi, textSlot 5])) .nil

def exDg : Node :=
  .mk 4 (.cons (listSlot 1 kCg .all) (exOne exCg) (noKids [textSlot 3]))
    (.cons ⟨2, false, kDt, .onlyLast⟩ (exOne (.mk 9 .nil .nil)) .nil)

/-- A data group without channel groups, added later. -/
def exDg2 : Node := .mk 10 (noKids dgPre) (noKids dgPost)

def exHd (dgs : Kids) : Node :=
  .mk 1 .nil (.cons (listSlot 1 kFh .never) (exOne (.mk 2 .nil (.cons (textSlot 1) (exOne (.mk 3 .nil .nil)) .nil)))
    (.cons (textSlot 5) .nil (.cons (listSlot 3 kAt .never) .nil (.cons (listSlot 2 kCh .never) .nil
    (.cons (listSlot 4 kEv .never) .nil (.cons (listSlot 0 kDg .all) dgs .nil))))))

def exTree1 : Node := exHd (exOne exDg)
def exTree2 : Node := exHd (.cons exDg (exOne exDg2))

/-- 80 bytes of samples were written, and the cycle counter of the group counts 10 samples. -/
def exEdited (S : FileSt) : FileSt :=
  { S.set 5 { S.st 5 with body := (S.st 5).body.take 8 ++ leBytes 8 10 ++ (S.st 5).body.drop 16 } with
    data := S.data ++ List.replicate 80 0x11#8 }

theorem exTree1_shape : NodeShape exInfo false exTree1 := by decide +kernel

theorem exTree2_shape : NodeShape exInfo false exTree2 := by decide +kernel

theorem exTree1_fresh : NodeFresh exFile exTree1 := by decide +kernel

theorem exTree2_fits : NodeFits exInfo mdf4Schema exTree2 := by decide +kernel

def exWritten : FileSt := writeNode exInfo exFile exTree1

theorem exSession1 : Session exInfo exWritten exTree1 :=
  .first exFile_opened.inv (by decide) rfl exTree1_fresh exTree1_shape (by decide)

theorem exEdited_thrown (S : FileSt) : (exEdited S).thrown = S.thrown := rfl

theorem exEdited_data (S : FileSt) : (exEdited S).data = S.data ++ List.replicate 80 0x11#8 := rfl

theorem exEdit_of (S : FileSt) (hb : (S.st 5).body = List.replicate 40 5#8) (h10 : S.st 10 = exFile.st 10) :
    Edited exInfo S exTree1 (exEdited S) exTree2 := by
  have hset : ∀ id, (exEdited S).st id = if id = 5 then { S.st 5 with
      body := (S.st 5).body.take 8 ++ leBytes 8 10 ++ (S.st 5).body.drop 16 } else S.st id := by
    intro id; rfl
  refine ⟨⟨_, exEdited_data _⟩, ?_, ?_, ?_, exEdited_thrown _, ?_⟩
  · intro id
    unfold FileSt.pos
    rw [hset]
    split
    · next h => subst h; rfl
    · rfl
  · intro id _
    rw [hset]
    split
    · next h =>
      subst h
      refine ⟨rfl, rfl, ?_, ?_⟩
      · simp only [hb]; decide
      · intro i hi
        simp only [hb]
        have : ¬ (8 ≤ i ∧ i < 16) := fun h => hi ⟨(8, 8), by decide, h⟩
        by_cases h1 : i < 40
        · have hall : ∀ j < 40, ¬ (8 ≤ j ∧ j < 16) → ((List.replicate 40 5#8).take 8 ++ leBytes 8 10 ++ (List.replicate 40 5#8).drop 16)[j]? =
              (List.replicate 40 5#8)[j]? := by decide
          exact hall i h1 this
        · rw [List.getElem?_eq_none (by simp [leBytes_length]; omega), List.getElem?_eq_none (by simp; omega)]
    · exact ⟨rfl, rfl, rfl, fun _ _ => rfl⟩
  · intro id _ hl
    rw [hset, if_neg]
    intro e; subst e; exact hl (by decide)
  · have e10 : (exEdited S).st 10 = exFile.st 10 := h10
    simp only [exTree1, exTree2, exHd, exOne, exDg, exDg2, exCg, exCn, noKids, dgPre, dgPost, List.foldr, NodeGrown, SlotsGrown, KidsGrown,
      KidsFresh, NodeFresh, SlotsFresh, listSlot, textSlot, oneSlot, if_true, true_and, and_true, reduceCtorEq, if_false]
    unfold FileSt.pos
    rw [e10]
    exact ⟨rfl, rfl⟩

theorem exEdit : Edited exInfo exWritten exTree1 (exEdited exWritten) exTree2 := by
  apply exEdit_of
  · decide +kernel
  · have h := writeNode_spec (I := exInfo) exTree1 exFile false exFile_opened.inv (by decide) exTree1_shape (by decide)
      (Or.inl exTree1_fresh)
    have h10 : 10 ∉ exTree1.ids := by decide
    have := (h.post.same 10 h10).1
    unfold exWritten
    rw [this]

theorem exSession2 : Session exInfo (writeNode exInfo (exEdited exWritten) exTree2) exTree2 :=
  .again exSession1 exEdit exTree2_shape (by decide)

/-- The hypotheses of `C28_tree_read_back` hold for a file that was written twice. -/
example : ∃ next, readNode mdf4Schema (writeNode exInfo (exEdited exWritten) exTree2).data 10 kHd 64 =
    .ok (exTree2.view exInfo (exEdited exWritten).bodies, next) := by
  have hp : (writeNode exInfo (exEdited exWritten) exTree2).pos 1 = 64 := by decide +kernel
  obtain ⟨_, next, h⟩ := C28_tree_read_back exSession2 exTree2_fits (by decide +kernel) 10 (by decide)
  rw [C28_rewrite_keeps_values exSession1 exEdit exTree2_shape (by decide)] at h
  refine ⟨next, ?_⟩
  have e : (writeNode exInfo (exEdited exWritten) exTree2).pos exTree2.id = 64 := hp
  rw [e] at h
  exact h

/-- A list of two blocks below a block. -/
example : ∃ next, readNode (fun k => if k = kDg then [listSlot 1 kCn .never] else [])
    (writeNode exInfo exFile (.mk 4 .nil (.cons (listSlot 1 kCn .never) (.cons (.mk 6 .nil .nil) (.cons (.mk 7 .nil .nil) .nil)) .nil))).data
      3 kDg ((writeNode exInfo exFile (.mk 4 .nil (.cons (listSlot 1 kCn .never) (.cons (.mk 6 .nil .nil) (.cons (.mk 7 .nil .nil) .nil))
        .nil))).pos 4) =
    .ok (.mk (exTy 0x44 0x47) (exFile.st 4).body [[.mk (exTy 0x43 0x4E) (exFile.st 6).body [], .mk (exTy 0x43 0x4E) (exFile.st 7).body []]], next) := by
  have h := C28_list_read_back (I := exInfo) (S := exFile) (root := 4) (s := listSlot 1 kCn .never) (kids := [6, 7])
    (Sc := fun k => if k = kDg then [listSlot 1 kCn .never] else [])
    exFile_opened.inv (by decide) rfl (by decide) (by decide) rfl (by decide) (fun id _ => exInfo_type id) (by decide) (by decide) rfl rfl
  exact (h (by decide +kernel)).2

/-- A run with two blocks, a link and sample data. -/
def exOps : List BOp := [.start 1, .write 1, .data [1, 2, 3], .start 2, .write 2, .link 1 1 144, .values 1 (List.replicate 8 7), .write 1]

theorem allowed_values {S : FileSt} {id : Nat} {body b : Bytes} (hb : (S.st id).body = b) (hl : body.length = b.length)
    (hr : ∀ i, ¬ (I id).rewrites i → body[i]? = b[i]?) : (BOp.values id body).Allowed I S := by
  intro _
  rw [hb]
  exact ⟨hl, hr⟩

theorem exOps_allowed : AllowedRun exInfo exFile exOps := by
  refine ⟨trivial, trivial, trivial, trivial, trivial, trivial, ?_, trivial, trivial⟩
  refine allowed_values (b := List.replicate 8 1#8) (by decide +kernel) (by decide) (fun i hi => ?_)
  have : ¬ (0 ≤ i ∧ i < 32) := fun h => hi ⟨(0, 32), by decide, by simpa using h⟩
  rw [List.getElem?_eq_none (by simp; omega), List.getElem?_eq_none (by simp; omega)]

/-- The hypotheses of C26 and C27 hold; the blocks are at 64 and 152, the link is read. -/
example : (exFile.run exInfo exOps).pos 1 = 64 ∧ (exFile.run exInfo exOps).pos 2 = 152 ∧
    (readHeader (exFile.run exInfo exOps).data 64).map (·.1) = some ⟨exTy 0x48 0x44, 80, [0, 144, 0, 0, 0, 0]⟩ := by decide +kernel

end Mdf
