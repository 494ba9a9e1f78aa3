import Verif.Proof.Mdf3Meta

/-!
# What an MDF 3 file keeps

C75: what is read of header, groups, channels and conversions.  C76: where the samples are.  C77: parameters of conversions.
C78: names of channels.
-/

namespace Mdf

/-! ### C75 -/

/-- **C75.**  After any history of writing, changing, adding and saving samples, the reader finds the whole tree, and of each value
what is kept of it. -/
theorem C75_mdf3_read_back {I : Nat → Info3} {S : FileSt} {n : Node} {log : Nat → Bytes} {val : Nat → Val3} {pad : Nat → List (BitVec 64)}
    (h : Session3 I schema3 kDg3 3 64 S n log) (hv : Held3 I S n val pad) (hroot : (I n.id).kind = kHd3) (hpre : n.pre = .nil)
    (hlen : S.data.length < 2 ^ 32) (fuel : Nat) (hf : n.ids.length ≤ fuel) :
    S.thrown = false ∧
    ∃ nx, readNode3 getVal3 heads3 schema3 S.data fuel kHd3 64 = .ok (n.view3 (fun j => (val j).seen (pad j)), nx) := by
  have hok := Session3.ok (by decide) (by decide) h
  refine ⟨hok.good.thrown, ?_⟩
  obtain ⟨nx, hr, _⟩ := readNode3_ok (G := getVal3) (heads := heads3) (val := fun j => (val j).seen (pad j)) hok.good.inv hlen n fuel false hf
    hok.good.ok hok.good.shape hok.fits (fun j hj => by
      obtain ⟨h1, h2, h3⟩ := hv j hj
      rw [h1, h2]
      exact val3_reads (pad j) (val j) h3)
  rw [hroot, hok.root hpre] at hr
  exact ⟨nx, hr⟩

mutual
theorem view3_congr {V : Type} {f g : Nat → V} (n : Node) (h : ∀ j ∈ n.ids, f j = g j) : n.view3 f = n.view3 g := by
  match n with
  | .mk id pre post =>
    simp only [Node.ids, List.mem_cons, List.mem_append] at h
    simp only [Node.view3]
    rw [h id (.inl rfl), views3_congr pre (fun j hj => h j (.inr (.inl hj))), views3_congr post (fun j hj => h j (.inr (.inr hj)))]
theorem views3_congr {V : Type} {f g : Nat → V} (s : Slots) (h : ∀ j ∈ s.ids, f j = g j) : s.views3 f = s.views3 g := by
  match s with
  | .nil => rfl
  | .cons _ kids rest =>
    simp only [Slots.ids, List.mem_append] at h
    simp only [Slots.views3]
    rw [kviews3_congr kids (fun j hj => h j (.inl hj)), views3_congr rest (fun j hj => h j (.inr hj))]
theorem kviews3_congr {V : Type} {f g : Nat → V} (k : Kids) (h : ∀ j ∈ k.ids, f j = g j) : k.views3 f = k.views3 g := by
  match k with
  | .nil => rfl
  | .cons n rest =>
    simp only [Kids.ids, List.mem_append] at h
    simp only [Kids.views3]
    rw [view3_congr n (fun j hj => h j (.inl hj)), kviews3_congr rest (fun j hj => h j (.inr hj))]
end

/-- **C75.**  If the texts fit into their fields and conversions have no parameters, everything is read back as it was set. -/
theorem C75_mdf3_kept {I : Nat → Info3} {S : FileSt} {n : Node} {log : Nat → Bytes} {val : Nat → Val3} {pad : Nat → List (BitVec 64)}
    (h : Session3 I schema3 kDg3 3 64 S n log) (hv : Held3 I S n val pad) (hc : ∀ j ∈ n.ids, (val j).Clean)
    (hroot : (I n.id).kind = kHd3) (hpre : n.pre = .nil) (hlen : S.data.length < 2 ^ 32) (fuel : Nat) (hf : n.ids.length ≤ fuel) :
    ∃ nx, readNode3 getVal3 heads3 schema3 S.data fuel kHd3 64 = .ok (n.view3 val, nx) := by
  obtain ⟨_, nx, hr⟩ := C75_mdf3_read_back h hv hroot hpre hlen fuel hf
  rw [view3_congr n (fun j hj => val3_clean (pad j) (val j) (hc j hj))] at hr
  exact ⟨nx, hr⟩

theorem trim_length_le (s : Bytes) : (trim s).length ≤ s.length := by
  obtain ⟨a, b, h, -⟩ := trim_split s
  calc (trim s).length ≤ a.length + (trim s).length + b.length := by omega
    _ = (a ++ trim s ++ b).length := by simp; omega
    _ = s.length := by rw [← h]

theorem mem_takeWhile_true {p : Byte → Bool} {s : Bytes} {c : Byte} (h : c ∈ s.takeWhile p) : p c = true := by
  induction s with
  | nil => simp at h
  | cons d s ih =>
    by_cases hd : p d = true
    · rw [List.takeWhile_cons_of_pos hd] at h
      rcases List.mem_cons.1 h with rfl | h
      · exact hd
      · exact ih h
    · rw [List.takeWhile_cons_of_neg hd] at h
      simp at h

/-- **C75.**  A text is kept as it is if and only if it fits into its field. -/
theorem C75_text_kept_iff (m : Nat) (s : Bytes) : shown m s = s ↔ TextFits m s := by
  refine ⟨fun h => ?_, shown_fits⟩
  have hs : s.length ≤ m ∧ ∀ c ∈ s, c ≠ 0#8 := by
    have hle : (shown m s).length ≤ ((s.take m).takeWhile (· ≠ 0#8)).length := trim_length_le _
    have h2 : ((s.take m).takeWhile (· ≠ 0#8)).length ≤ (s.take m).length := (List.takeWhile_sublist _).length_le
    rw [h] at hle
    have h3 : (s.take m).length = min m s.length := List.length_take
    have hm : s.length ≤ m := by omega
    refine ⟨hm, fun c hc => ?_⟩
    rw [List.take_of_length_le hm] at hle
    have e : s.takeWhile (· ≠ 0#8) = s := (List.takeWhile_sublist _).eq_of_length_le hle
    rw [← e] at hc
    simpa using mem_takeWhile_true hc
  refine ⟨hs.1, hs.2, ?_, ?_⟩
  · rw [← h]; exact trim_head _
  · rw [← h]; exact trim_last _

/-! What may be changed between two writes: all values of the header and of data groups, and the number of samples of a channel
group. -/

theorem getElem?_middle {A X Y B : Bytes} (h : X.length = Y.length) (i : Nat) (hi : i < A.length ∨ A.length + X.length ≤ i) :
    (A ++ X ++ B)[i]? = (A ++ Y ++ B)[i]? := by
  rw [List.append_assoc, List.append_assoc]
  rcases hi with hi | hi
  · rw [List.getElem?_append_left hi, List.getElem?_append_left hi]
  · rw [List.getElem?_append_right (by omega), List.getElem?_append_right (by omega), List.getElem?_append_right (by omega),
      List.getElem?_append_right (by omega), h]

/-- The part of the block before the values, for the classes without links behind the values. -/
def front3 (inf : Info3) (b : BObj) : Bytes := writeStr inf.ty 2 ++ leBytes 2 b.len ++ links4 b.links

theorem lay3_front {inf : Info3} {b : BObj} (hc : inf.cut = 0) (hl : b.links.length = inf.head) (body : Bytes) :
    lay3 inf { b with body := body } = front3 inf b ++ body := by
  unfold lay3 front3
  simp only [hc, List.take_zero, List.append_nil, List.drop_zero]
  rw [List.take_of_length_le (Nat.le_of_eq hl), List.drop_of_length_le (Nat.le_of_eq hl)]
  simp [links4]

theorem front3_length (inf : Info3) (b : BObj) : (front3 inf b).length = 4 + 4 * b.links.length := by
  simp only [front3, List.length_append, writeStr_length, leBytes_length, links4_length]

/-- **C75.**  All values of the header may change. -/
theorem C75_header_may_change (v w : Hd3Vals) (pad : List (BitVec 64)) (b : BObj) (hb : b.body = (Val3.hd v).write pad)
    (hl : b.links.length = 3) : BodyEdit3 (Val3.hd v).info b ((Val3.hd w).write pad) := by
  refine ⟨by rw [hb]; show w.write.length = v.write.length; rw [hd3_length, hd3_length], fun i hi => ?_⟩
  have e : lay3 (Val3.hd v).info b = lay3 (Val3.hd v).info { b with body := (Val3.hd v).write pad } := by rw [← hb]
  rw [e, lay3_front rfl hl, lay3_front rfl hl]
  have h1 := front3_length (Val3.hd v).info b
  rw [hl] at h1
  have hlen : ((Val3.hd w).write pad).length = ((Val3.hd v).write pad).length := by
    show w.write.length = v.write.length
    rw [hd3_length, hd3_length]
  have h2 : ((Val3.hd w).write pad).length = 192 := hd3_length w
  have := getElem?_middle (A := front3 (Val3.hd v).info b) (B := []) hlen i (by
    rcases Nat.lt_or_ge i 16 with h | h
    · left; omega
    · rcases Nat.lt_or_ge i 208 with h' | h'
      · exact absurd ⟨(16, 192), List.mem_cons_self, h, by show i < 16 + 192; omega⟩ hi
      · right; omega)
  simpa using this

/-- **C75.**  The numbers of a data group may change. -/
theorem C75_data_group_may_change (v w : Dg3Vals) (pad : List (BitVec 64)) (b : BObj) (hb : b.body = (Val3.dg v).write pad)
    (hl : b.links.length = 4) : BodyEdit3 (Val3.dg v).info b ((Val3.dg w).write pad) := by
  refine ⟨by rw [hb]; show w.write.length = v.write.length; rw [dg3_length, dg3_length], fun i hi => ?_⟩
  have e : lay3 (Val3.dg v).info b = lay3 (Val3.dg v).info { b with body := (Val3.dg v).write pad } := by rw [← hb]
  rw [e, lay3_front rfl hl, lay3_front rfl hl]
  have h1 := front3_length (Val3.dg v).info b
  rw [hl] at h1
  have hlen : ((Val3.dg w).write pad).length = ((Val3.dg v).write pad).length := by
    show w.write.length = v.write.length
    rw [dg3_length, dg3_length]
  have h2 : ((Val3.dg w).write pad).length = 8 := dg3_length w
  have := getElem?_middle (A := front3 (Val3.dg v).info b) (B := []) hlen i (by
    rcases Nat.lt_or_ge i 20 with h | h
    · left; omega
    · rcases Nat.lt_or_ge i 28 with h' | h'
      · exact absurd ⟨(20, 8), List.mem_cons_self, h, by show i < 20 + 8; omega⟩ hi
      · right; omega)
  simpa using this

/-- **C75.**  The number of samples of a channel group may change. -/
theorem C75_counter_may_change (v : Cg3Vals) (r : BitVec 32) (pad : List (BitVec 64)) (b : BObj) (hb : b.body = (Val3.cg v).write pad)
    (hl : b.links.length = 3) : BodyEdit3 (Val3.cg v).info b ((Val3.cg { v with records := r }).write pad) := by
  refine ⟨by rw [hb]; show (Cg3Vals.write _).length = v.write.length; rw [cg3_length, cg3_length], fun i hi => ?_⟩
  have e : lay3 (Val3.cg v).info b = lay3 (Val3.cg v).info { b with body := (Val3.cg v).write pad } := by rw [← hb]
  rw [e, lay3_front rfl hl, lay3_front rfl hl]
  have h1 := front3_length (Val3.cg v).info b
  rw [hl] at h1
  have split : ∀ x : BitVec 32, front3 (Val3.cg v).info b ++ (Val3.cg { v with records := x }).write pad =
      (front3 (Val3.cg v).info b ++ (putNum (n := 2) v.recordId ++ (putNum (n := 2) v.nofCn ++ putNum (n := 2) v.recSize))) ++
        putNum (n := 4) x ++ putZeros 4 := by
    intro x
    simp only [Val3.write, Cg3Vals.write, List.append_assoc]
  have hA : (front3 (Val3.cg v).info b ++ (putNum (n := 2) v.recordId ++ (putNum (n := 2) v.nofCn ++ putNum (n := 2) v.recSize))).length = 22 := by
    simp only [List.length_append, h1, putNum_length]
  have hv := split v.records
  have hv' : front3 (Val3.cg v).info b ++ (Val3.cg v).write pad = _ := hv
  rw [split r, hv']
  refine getElem?_middle (by rw [putNum_length, putNum_length]) i ?_
  rw [hA, putNum_length]
  rcases Nat.lt_or_ge i 22 with h | h
  · left; omega
  · rcases Nat.lt_or_ge i 26 with h' | h'
    · exact absurd ⟨(22, 4), List.mem_cons_self, h, by show i < 22 + 4; omega⟩ hi
    · right; omega

/-! A concrete file: a header with a comment, one data group, one channel group and two channels, one with a unit and one with a long
name.  It is written, a sample is saved, then the author changes and a data group is added. -/

def exMetaName3 : Bytes := List.replicate 40 0x4E#8

def exMetaVal3 : Nat → Val3
  | 0 => .hd { nofDg := 1, author := [0x41, 0x42] }
  | 1 => .tx [0x68, 0x69]
  | 2 => .dg ⟨1, 0⟩
  | 3 => .cg ⟨0, 2, 6, 0⟩
  | 4 => .cn ⟨1, [0x74], [0x64, 0x65], 0, 32, 0, false, 0, 0, 0, 0⟩
  | 5 => .cc { unit := [0x73] }
  | 6 => .cn ⟨0, exMetaName3.take 31, [], 32, 16, 0, false, 0, 0, 0, 0⟩
  | 7 => .tx exMetaName3
  | _ => .dg ⟨0, 0⟩

def exMetaI3 (j : Nat) : Info3 := (exMetaVal3 j).info

def exMetaCn3 (id : Nat) (long cc : Kids) : Node :=
  .mk id (.cons ⟨5, false, kTx3, .ifNoLink⟩ long (.cons ⟨6, false, kTx3, .ifNoLink⟩ .nil .nil))
    (.cons ⟨1, false, kCc3, .ifNoLink⟩ cc (.cons ⟨4, false, kTx3, .ifNoLink⟩ .nil .nil))

def exMetaLeaf3 (id : Nat) : Kids := .cons (.mk id .nil .nil) .nil

def exMetaCg3 : Node :=
  .mk 3 .nil (.cons ⟨1, true, kCn3, .never⟩ (.cons (exMetaCn3 4 .nil (exMetaLeaf3 5)) (.cons (exMetaCn3 6 (exMetaLeaf3 7) .nil) .nil))
    (.cons ⟨2, false, kTx3, .ifNoLink⟩ .nil .nil))

def exMetaDg3 (id : Nat) (cgs : Kids) : Node := .mk id .nil (.cons ⟨1, true, kCg3, .all⟩ cgs .nil)

def exMetaTree3 (more : Kids) : Node :=
  .mk 0 .nil (.cons ⟨1, false, kTx3, .ifNoLink⟩ (exMetaLeaf3 1)
    (.cons ⟨0, true, kDg3, .onlyLast⟩ (.cons (exMetaDg3 2 (.cons exMetaCg3 .nil)) more) .nil))

def exMetaS0 : FileSt := { data := putZeros 64, st := fun j => ⟨0, 0, [], (exMetaVal3 j).write []⟩, thrown := false }

/-- After the first write. -/
def exMetaS1 : FileSt := writeNode3 exMetaI3 exMetaS0 (exMetaTree3 .nil)

def exMetaCgs : List (Node × Bytes) := [(exMetaCg3, (Val3.cg ⟨0, 2, 6, 1⟩).write [])]

/-- After saving a sample. -/
def exMetaS2 : FileSt := exMetaS1.saveSamples3 exMetaI3 2 3 [1#8, 2#8, 3#8, 4#8, 5#8, 6#8] exMetaCgs

theorem exMetaInv : FileInv3 exMetaI3 exMetaS0 := ⟨fun id h => absurd h (by show ¬ 0 < 0; omega), fun a b _ h => absurd h (by show ¬ 0 < 0; omega)⟩

theorem exMeta_shape : NodeShape3 exMetaI3 false (exMetaTree3 .nil) := by
  simp [exMetaTree3, exMetaDg3, exMetaCg3, exMetaCn3, exMetaLeaf3, NodeShape3, SlotsShape3, KidsShape3, exMetaI3, exMetaVal3, Val3.info,
    Slots.indices, Node.id, Kids.isNil]

theorem exMeta_fits : NodeFits3 exMetaI3 schema3 (exMetaTree3 .nil) := by
  simp [exMetaTree3, exMetaDg3, exMetaCg3, exMetaCn3, exMetaLeaf3, NodeFits3, SlotsFits3, KidsFits3, exMetaI3, exMetaVal3, Val3.info,
    schema3, Slots.slots, kHd3, kDg3, kCg3, kCn3, kCc3, kTx3]

theorem exMeta_fresh : NodeFresh exMetaS0 (exMetaTree3 .nil) := by
  simp [exMetaTree3, exMetaDg3, exMetaCg3, exMetaCn3, exMetaLeaf3, NodeFresh, SlotsFresh, KidsFresh, exMetaS0, FileSt.pos]

theorem exMeta_first : Session3 exMetaI3 schema3 kDg3 3 64 exMetaS1 (exMetaTree3 .nil) (fun _ => []) :=
  .first exMetaInv (by decide) (by decide) rfl exMeta_fresh exMeta_shape exMeta_fits (by decide)

attribute [local irreducible] exMetaS1 in
theorem exMeta_samples : Session3 exMetaI3 schema3 kDg3 3 64 exMetaS2 (exMetaTree3 .nil)
    (fun j => if j = 2 then [1#8, 2#8, 3#8, 4#8, 5#8, 6#8] else []) := by
  refine .samples 2 [1#8, 2#8, 3#8, 4#8, 5#8, 6#8] exMetaCgs exMeta_first (by decide) rfl (by decide) ?_ (by decide) (by decide) ?_
  · intro p hp
    obtain rfl := List.mem_singleton.1 hp
    refine ⟨by simp [exMetaTree3, exMetaDg3, exMetaLeaf3, exMetaCg3, Node.nodes, Slots.nodes, Kids.nodes], ?_, ?_⟩
    · intro s hs last
      simp only [Slots.slots, List.mem_cons, List.not_mem_nil, or_false] at hs
      rcases hs with rfl | rfl <;> rfl
    · exact C75_counter_may_change ⟨0, 2, 6, 0⟩ 1 [] (exMetaS1.st 3) (by decide +kernel) (by decide +kernel)
  · intro h
    exact absurd h (by decide +kernel)

/-- The author changes and a data group is added. -/
def exMetaS3 : FileSt := exMetaS2.setBody 0 ((Val3.hd { nofDg := 2, author := [0x43, 0x44] }).write [])

/-- The last write. -/
def exMetaS4 : FileSt := writeNode3 exMetaI3 exMetaS3 (exMetaTree3 (.cons (exMetaDg3 8 .nil) .nil))

theorem exMeta_st (j : Nat) (h : j ≠ 0) : exMetaS3.st j = exMetaS2.st j := by
  simp only [exMetaS3, FileSt.setBody, FileSt.set, if_neg h]

theorem exMeta_st0 : exMetaS3.st 0 = { exMetaS2.st 0 with body := (Val3.hd { nofDg := 2, author := [0x43, 0x44] }).write [] } := by
  simp [exMetaS3, FileSt.setBody, FileSt.set]

attribute [local irreducible] exMetaS2 in
theorem exMeta_edited : Edited3 exMetaI3 exMetaS2 (exMetaTree3 .nil) exMetaS3 (exMetaTree3 (.cons (exMetaDg3 8 .nil) .nil)) := by
  have hb := C75_header_may_change { nofDg := 1, author := [0x41, 0x42] } { nofDg := 2, author := [0x43, 0x44] } [] (exMetaS2.st 0)
    (by decide +kernel) (by decide +kernel)
  refine ⟨rfl, fun id => ?_, fun id _ => ?_, fun id _ hl => ?_, rfl, ?_⟩
  · by_cases h : id = 0
    · subst h; show (exMetaS3.st 0).pos = (exMetaS2.st 0).pos; rw [exMeta_st0]
    · show (exMetaS3.st id).pos = (exMetaS2.st id).pos; rw [exMeta_st id h]
  · by_cases h : id = 0
    · subst h
      rw [exMeta_st0]
      exact ⟨rfl, rfl, hb.1, hb.2⟩
    · rw [exMeta_st id h]
      exact ⟨rfl, rfl, rfl, fun _ _ => rfl⟩
  · by_cases h : id = 0
    · subst h
      exact absurd (List.mem_cons_self) hl
    · rw [exMeta_st id h]
  · have h8 : exMetaS3.pos 8 = 0 ∧ (exMetaS3.st 8).links = [] := by decide +kernel
    simp [exMetaTree3, exMetaDg3, exMetaLeaf3, NodeGrown3, SlotsGrown3, KidsGrown3, KidsFresh, NodeFresh, SlotsFresh, UpdOpt.again,
      Kids.isNil, h8.1, h8.2]

theorem exMeta3_session : Session3 exMetaI3 schema3 kDg3 3 64 exMetaS4 (exMetaTree3 (.cons (exMetaDg3 8 .nil) .nil))
    (fun j => if j = 2 then [1#8, 2#8, 3#8, 4#8, 5#8, 6#8] else []) := by
  refine .again exMeta_samples exMeta_edited ?_ ?_ (by decide)
  · simp [exMetaTree3, exMetaDg3, exMetaCg3, exMetaCn3, exMetaLeaf3, NodeShape3, SlotsShape3, KidsShape3, exMetaI3, exMetaVal3, Val3.info,
      Slots.indices, Node.id, Kids.isNil]
  · simp [exMetaTree3, exMetaDg3, exMetaCg3, exMetaCn3, exMetaLeaf3, NodeFits3, SlotsFits3, KidsFits3, exMetaI3, exMetaVal3, Val3.info,
      schema3, Slots.slots, kHd3, kDg3, kCg3, kCn3, kCc3, kTx3]

/-- The values at the end. -/
def exMetaEnd3 (j : Nat) : Val3 :=
  if j = 0 then .hd { nofDg := 2, author := [0x43, 0x44] } else if j = 3 then .cg ⟨0, 2, 6, 1⟩ else exMetaVal3 j

theorem exMeta_held : Held3 exMetaI3 exMetaS4 (exMetaTree3 (.cons (exMetaDg3 8 .nil) .nil)) exMetaEnd3 (fun _ => []) := by
  intro j hj
  have hj : j ∈ [0, 1, 2, 3, 4, 5, 6, 7, 8] := by revert j; decide
  have hb : ∀ j ∈ [0, 1, 2, 3, 4, 5, 6, 7, 8], (exMetaS4.st j).body = (exMetaEnd3 j).write [] := by decide +kernel
  refine ⟨?_, hb j hj, ?_⟩
  · simp only [List.mem_cons, List.not_mem_nil, or_false] at hj
    rcases hj with rfl | rfl | rfl | rfl | rfl | rfl | rfl | rfl | rfl <;> rfl
  · simp only [List.mem_cons, List.not_mem_nil, or_false] at hj
    rcases hj with rfl | rfl | rfl | rfl | rfl | rfl | rfl | rfl | rfl <;>
      first | exact True.intro | exact ⟨by decide, by decide, by decide⟩ | exact (by decide : [0x68#8, 0x69#8].length < 2 ^ 32) | exact (by decide : exMetaName3.length < 2 ^ 32)

/-- The reader finds all of it in this file. -/
example : ∃ nx, readNode3 getVal3 heads3 schema3 exMetaS4.data 9 kHd3 64 =
    .ok ((exMetaTree3 (.cons (exMetaDg3 8 .nil) .nil)).view3 (fun j => (exMetaEnd3 j).seen []), nx) :=
  (C75_mdf3_read_back exMeta3_session exMeta_held rfl rfl (by decide +kernel) 9 (by decide)).2

/-! ### C76 -/

/-- **C76.**  The samples that were saved for a data group are where the reader looks for them: at the position that the last link in the
block of the data group tells, all in the order in which they were saved. -/
theorem C76_mdf3_samples_found_partial {I : Nat → Info3} {S : FileSt} {n : Node} {log : Nat → Bytes} {val : Nat → Val3} {pad : Nat → List (BitVec 64)}
    (h : Session3 I schema3 kDg3 3 64 S n log) (hv : Held3 I S n val pad) (hlen : S.data.length < 2 ^ 32) (dg : Nat) (hdg : dg ∈ n.ids)
    (hne : log dg ≠ []) :
    ∃ v ls rest, val dg = .dg v ∧ readHeader3 4 S.data (S.pos dg) = some ((28, ls), rest) ∧ HasAt S.data (ls.getD 3 0) (log dg) := by
  have hok := Session3.ok (by decide) (by decide) h
  have hr := hok.recs dg hne
  obtain ⟨hi, hb, -⟩ := hv dg hdg
  have hk := hr.kind
  rw [hi] at hk
  obtain ⟨v, hval⟩ : ∃ v, val dg = .dg v := by
    generalize val dg = x at hk
    cases x with
    | dg v => exact ⟨v, rfl⟩
    | hd v => exact absurd (show kHd3 = kDg3 from hk) (by decide)
    | cg v => exact absurd (show kCg3 = kDg3 from hk) (by decide)
    | cn v => exact absurd (show kCn3 = kDg3 from hk) (by decide)
    | cc v => exact absurd (show kCc3 = kDg3 from hk) (by decide)
    | tx v => exact absurd (show kTx3 = kDg3 from hk) (by decide)
  obtain ⟨hp, hl, -, hex⟩ := NodeOk3.all n hok.good.shape hok.good.ok dg hdg
  have hm := hok.good.inv.mirror dg hp
  rw [hval] at hi
  have hlen28 : (S.st dg).len = 28 := by rw [hm.len, hi]; rfl
  have hlinks : (S.st dg).links.length = 4 := by rw [hl, hi]; rfl
  unfold BExact3 at hex
  rw [hi] at hex
  obtain ⟨rest, hrd⟩ := readHeader3_ok (inf := (Val3.dg v).info) (typeOk3_of (by decide)) (by rw [hlen28]; decide)
    (show 4 ≤ _ by omega) hex
  rw [hlen28] at hrd
  refine ⟨v, _, _, hval, hrd, ?_⟩
  have h0 : 0 < (log dg).length := List.length_pos_iff.2 hne
  have hin := hr.bytes.inside h0
  have hb' : S.link dg 3 < 2 ^ 32 := by omega
  have e : (((S.st dg).links.take 4).map (· % 2 ^ 32)).getD 3 0 = S.link dg 3 := by
    unfold FileSt.link at hb' ⊢
    generalize (S.st dg).links = ls at hlinks hb' ⊢
    match ls, hlinks, hb' with
    | [a, b, c, d], _, hb' =>
      show d % 2 ^ 32 = d
      exact Nat.mod_eq_of_lt hb'
  show HasAt S.data ((((S.st dg).links.take 4).map (· % 2 ^ 32)).getD 3 0) (log dg)
  rw [e]
  exact hr.bytes

example : ∃ v ls rest, exMetaEnd3 2 = .dg v ∧ readHeader3 4 exMetaS4.data (exMetaS4.pos 2) = some ((28, ls), rest) ∧
    HasAt exMetaS4.data (ls.getD 3 0) [1#8, 2#8, 3#8, 4#8, 5#8, 6#8] :=
  C76_mdf3_samples_found_partial exMeta3_session exMeta_held (by decide +kernel) 2 (by decide) (by decide)

/-- The samples of a data group are found whenever they are saved. -/
def C76_Statement : Prop :=
  ∀ (I : Nat → Info3) (S : FileSt) (dg dg' : Nat) (a b c : Bytes), dg ≠ dg' → 0 < S.pos dg → 0 < S.pos dg' →
    (S.st dg).links = [0, 0, 0, 0] → (S.st dg').links = [0, 0, 0, 0] → (I dg).head = 4 → (I dg').head = 4 →
    HasAt ((((S.saveSamples3 I dg 3 a []).saveSamples3 I dg' 3 b []).saveSamples3 I dg 3 c []).data)
      ((((S.saveSamples3 I dg 3 a []).saveSamples3 I dg' 3 b []).saveSamples3 I dg 3 c []).link dg 3) (a ++ c)

def exSaves : FileSt :=
  { data := putZeros 112
    st := fun i => ⟨if i = 0 then 0 else 28 * (i - 1), 28, [0, 0, 0, 0], []⟩
    thrown := false }

/-- **C76.**  Samples of a data group that are saved after those of another group are not found: the reader takes the bytes of the
other group instead. -/
theorem C76_statement_false : ¬ C76_Statement := fun h =>
  absurd (h (fun _ => (Val3.dg ⟨1, 0⟩).info) exSaves 2 3 [1#8] [2#8] [3#8] (by decide) (by decide) (by decide) rfl rfl rfl rfl 1 (by decide))
    (by decide +kernel)

/-! ### C77 -/

/-- The parameters of a conversion are read back. -/
def C77_Statement : Prop :=
  ∀ (v : Cc3Vals) (pad : List (BitVec 64)), (Val3.cc v).Fits → (v.seen pad).params = if ccSingle3 v.type || ccPair3 v.type then v.params else []

/-- **C77.**  What is read as parameters: each second one is not a parameter but the memory next to it, so only the first half of the
parameters is read. -/
theorem C77_params_read {v : Cc3Vals} {pad : List (BitVec 64)} (ht : ccSingle3 v.type = true) (i : Nat) (hi : i < v.params.length) :
    (v.seen pad).params[i]? = if i % 2 = 0 then v.params[i / 2]? else some (pad.getD (i / 2) 1) := by
  have key : ∀ (xs pad : List (BitVec 64)) (i : Nat), i < 2 * xs.length →
      (mixed3 xs pad)[i]? = if i % 2 = 0 then xs[i / 2]? else some (pad.getD (i / 2) 1) := by
    intro xs
    induction xs with
    | nil => intro pad i h; simp at h
    | cons x xs ih =>
      intro pad i h
      match i with
      | 0 => rfl
      | 1 => cases pad <;> rfl
      | i + 2 =>
        have e1 : (i + 2) % 2 = i % 2 := by omega
        have e2 : (i + 2) / 2 = i / 2 + 1 := by omega
        show (mixed3 xs pad.tail)[i]? = _
        rw [ih pad.tail i (by simp only [List.length_cons] at h; omega), e1, e2, List.getElem?_cons_succ]
        cases pad <;> simp
  have e : (v.seen pad).params = (mixed3 v.params pad).take v.params.length := by
    simp only [Cc3Vals.seen, if_pos ht]
  rw [e, List.getElem?_take, if_pos hi]
  exact key _ _ _ (by omega)

/-- **C77.**  The factor of a linear conversion has no influence on what is read. -/
theorem C77_factor_lost (v : Cc3Vals) (pad : List (BitVec 64)) (a b b' : BitVec 64) (ht : v.type = 0) :
    ({ v with params := [a, b] } : Cc3Vals).seen pad = ({ v with params := [a, b'] } : Cc3Vals).seen pad := by
  have h1 : ccSingle3 v.type = true := by rw [ht]; decide
  simp only [Cc3Vals.seen, if_pos h1, mixed3, List.length_cons, List.length_nil, List.take_succ_cons, List.take_zero]

theorem C77_statement_false : ¬ C77_Statement := fun h =>
  absurd (h { type := 0, params := [5, 7] } [] ⟨by decide, by decide, by decide⟩) (by decide +kernel)

/-- **C77.**  Without parameters the conversion is read as it was set. -/
theorem C77_conversion_kept_partial (v : Cc3Vals) (pad : List (BitVec 64)) (h : (Val3.cc v).Clean) : v.seen pad = v :=
  Val3.cc.inj (val3_clean pad (.cc v) h)

example : (Val3.cc { unit := [0x73], type := 10, formula := [0x58, 0x31] }).Clean :=
  ⟨⟨by decide, by decide, by decide, by decide⟩, rfl, ⟨by decide, by decide, by decide, by decide⟩, rfl⟩

example : (Cc3Vals.seen [0x101, 0x201] { type := 0, params := [5, 7] }).params = [5, 0x101] := by decide +kernel

/-! ### C78 -/

/-- The name of a channel: the texts that a `Cn3Block` stores for it. -/
def Named3 (n : Node) (val : Nat → Val3) (name : Bytes) : Prop :=
  ∃ id v kids rest post, n = .mk id (.cons ⟨5, false, kTx3, .ifNoLink⟩ kids rest) post ∧ val id = .cn v ∧ v.short = (setName3 name).1 ∧
    ((setName3 name).2 = [] ∧ kids = .nil ∨ (setName3 name).2 ≠ [] ∧ ∃ j, kids = .cons (.mk j .nil .nil) .nil ∧ val j = .tx (setName3 name).2)

/-- Every name of a channel is read back. -/
def C78_Statement : Prop :=
  ∀ (n : Node) (val : Nat → Val3) (pad : Nat → List (BitVec 64)) (name : Bytes), Named3 n val name → TextFits name.length name →
    chanName3 (n.view3 fun j => (val j).seen (pad j)) = some name

theorem chanName3_view {n : Node} {val : Nat → Val3} {pad : Nat → List (BitVec 64)} {name : Bytes} (h : Named3 n val name) :
    chanName3 (n.view3 fun j => (val j).seen (pad j)) = some (getName3 (shown 32 (setName3 name).1)
      (shown (txKept (setName3 name).2.length) (setName3 name).2)) := by
  obtain ⟨id, v, kids, rest, post, rfl, hv, hs, hk⟩ := h
  rcases hk with ⟨h2, rfl⟩ | ⟨h2, j, rfl, hj⟩
  · simp only [Node.view3, Slots.views3, Kids.views3, hv, Val3.seen, List.cons_append, chanName3, text3, h2]
    simp only [Cn3Vals.seen, hs]
    rfl
  · simp only [Node.view3, Slots.views3, Kids.views3, hv, hj, Val3.seen, List.cons_append, chanName3, text3]
    simp only [Cn3Vals.seen, hs]

/-- **C78.**  A name of any length up to 65530 bytes is read back: the short one from the block, the long one from its own block. -/
theorem C78_channel_name_partial {n : Node} {val : Nat → Val3} {pad : Nat → List (BitVec 64)} {name : Bytes} (h : Named3 n val name)
    (hn : TextFits 65530 name) : chanName3 (n.view3 fun j => (val j).seen (pad j)) = some name := by
  rw [chanName3_view h]
  unfold setName3
  by_cases hl : 31 < name.length
  · simp only [if_pos hl]
    have e : txKept name.length = name.length + 1 := by
      have := hn.size
      unfold txKept
      rw [Nat.mod_eq_of_lt (by omega), if_neg (by omega), Nat.mod_eq_of_lt (by omega)]
    rw [e, shown_fits { hn with size := Nat.le_succ _ }]
    unfold getName3
    rw [if_neg (by intro e; rw [e] at hl; simp at hl)]
  · simp only [if_neg hl]
    rw [shown_fits (s := name) { hn with size := by omega }]
    rfl

example : chanName3 ((exMetaCn3 6 (exMetaLeaf3 7) .nil).view3 fun j => (exMetaEnd3 j).seen []) = some exMetaName3 :=
  C78_channel_name_partial (pad := fun _ => [])
    ⟨6, ⟨0, exMetaName3.take 31, [], 32, 16, 0, false, 0, 0, 0, 0⟩, _, _, _, rfl, rfl, by decide, .inr ⟨by decide, 7, rfl, by decide⟩⟩
    ⟨by decide, by decide, by decide, by decide⟩

/-- **C78.**  A longer name is lost, with 65535 bytes only the first 31 of them are read. -/
theorem C78_long_name_lost {n : Node} {val : Nat → Val3} {pad : Nat → List (BitVec 64)} {name : Bytes} (h : Named3 n val name)
    (hl : name.length = 65535) : chanName3 (n.view3 fun j => (val j).seen (pad j)) = some (shown 32 (name.take 31)) := by
  rw [chanName3_view h]
  unfold setName3
  have hl' : 31 < name.length := by omega
  simp only [if_pos hl']
  have e : txKept name.length = 0 := by rw [hl]; rfl
  rw [e]
  rfl

theorem C78_statement_false : ¬ C78_Statement := by
  intro h
  obtain ⟨name, hname⟩ : ∃ name : Bytes, name = List.replicate 65535 0x61#8 := ⟨_, rfl⟩
  let val : Nat → Val3 := fun j => if j = 0 then .cn ⟨0, (setName3 name).1, [], 0, 0, 0, false, 0, 0, 0, 0⟩ else .tx (setName3 name).2
  let n : Node := .mk 0 (.cons ⟨5, false, kTx3, .ifNoLink⟩ (.cons (.mk 1 .nil .nil) .nil) .nil) .nil
  have hlen : name.length = 65535 := by rw [hname]; exact List.length_replicate
  have hall : ∀ c ∈ name, c = 0x61#8 := fun c hc => by rw [hname] at hc; exact List.eq_of_mem_replicate hc
  have h2 : (setName3 name).2 = name := by unfold setName3; rw [if_pos (by omega)]
  have hnm : Named3 n val name := ⟨0, _, _, _, _, rfl, rfl, rfl, .inr ⟨by
    rw [h2]; intro e; rw [e] at hlen; exact absurd hlen (by decide), 1, rfl, rfl⟩⟩
  have hfit : TextFits name.length name := by
    refine ⟨Nat.le_refl _, ?_, ?_, ?_⟩
    · intro c hc
      rw [hall c hc]; decide
    · intro c hc
      rw [hall c (List.mem_of_mem_head? hc)]; decide
    · intro c hc
      rw [hall c (List.mem_of_getLast? hc)]; decide
  have e := h n val (fun _ => []) name hnm hfit
  rw [C78_long_name_lost hnm hlen] at e
  have e' := congrArg List.length (Option.some.inj e)
  have h3 : (shown 32 (name.take 31)).length ≤ 31 := by
    refine Nat.le_trans (trim_length_le _) (Nat.le_trans (List.takeWhile_sublist _).length_le ?_)
    simp only [List.length_take]
    omega
  rw [e', hlen] at h3
  exact absurd h3 (by decide)

end Mdf
