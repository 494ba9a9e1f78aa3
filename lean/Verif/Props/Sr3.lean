import Verif.Model.Sr3
import Verif.Proof.Mdf3Meta
import Verif.Proof.TreeRead3
import Verif.Proof.DataList
import Verif.Spec.DataList

/-!
# Property C120: mean, minimum and maximum of an MDF 3 sample reduction are those stored

The reductions of a channel group are listed in order with their number of samples and interval, and after `ReadSrData` they give the
values stored behind their data link.
-/

namespace Mdf

/-! ## What a file stores -/

/-- A channel group block that tells the size `size`, with the link to its reductions behind its values.  The format has 30 bytes. -/
def cg3Bytes (size : Nat) (v : Cg3Vals) (next cn tx sr : Nat) : Bytes :=
  writeStr [0x43, 0x47] 2 ++ leBytes 2 size ++ links4 [next, cn, tx] ++
    (putNum (n := 2) v.recordId ++ (putNum (n := 2) v.nofCn ++ (putNum (n := 2) v.recSize ++ (putNum (n := 4) v.records ++ leBytes 4 sr))))

/-- The chain of reductions from a link on: values and data link of each. -/
inductive SrChain (file : Bytes) : Nat → List (Sr3Vals × Nat) → Prop where
  | nil : SrChain file 0 []
  | cons (p next d : Nat) (v : Sr3Vals) (rest : List (Sr3Vals × Nat)) : 0 < p → next < 2 ^ 32 → d < 2 ^ 32 →
      HasAt file p (v.bytes next d) → SrChain file next rest → SrChain file p ((v, d) :: rest)

/-- The bytes behind a data link: for each sample the records of mean, minimum and maximum. -/
def sr3Rows (rows : List (Bytes × Bytes × Bytes)) : Bytes := rows.flatMap fun r => r.1 ++ (r.2.1 ++ r.2.2)

/-- All records have the size of the group's records. -/
def SrSized (n : Nat) (rows : List (Bytes × Bytes × Bytes)) : Prop := ∀ r ∈ rows, r.1.length = n ∧ r.2.1.length = n ∧ r.2.2.length = n

/-- **C120**, as stated: false of the code. -/
def C120_Statement : Prop :=
  ∀ (file : Bytes) (cg sr next cn tx : Nat) (v : Cg3Vals) (rs : List (Sr3Vals × Nat)), HasAt file cg (cg3Bytes 30 v next cn tx sr) →
    sr < 2 ^ 32 → SrChain file sr rs → ∃ (fuel : Nat) (os : List Sr3Obj), readGroupSr file fuel cg = .ok (v.recSize.toNat, os) ∧
      os.map (·.val) = rs.map (·.1) ∧
      ∀ (i : Nat) (o : Sr3Obj) (r : Sr3Vals × Nat) (rows : List (Bytes × Bytes × Bytes)), os[i]? = some o → rs[i]? = some r →
        SrSized v.recSize.toNat rows → 0 < v.recSize.toNat → (sr3Rows rows).length < 2 ^ 31 → HasAt file r.2 (sr3Rows rows) →
        ∃ o', o.readData file = some o' ∧ ∀ (β : Type) (get : Bytes → β) (k : Nat) (row : Bytes × Bytes × Bytes), rows[k]? = some row →
          o'.value v.recSize.toNat get k = some (some (get row.1, get row.2.1, get row.2.2))

/-! ## Reading blocks -/

theorem readHeader3_at {ty : Bytes} (hty : TypeOk3 ty) {len : Nat} (hlen : len < 2 ^ 16) (ls : List Nat) (body file : Bytes) (p : Nat)
    (h : HasAt file p (writeStr ty 2 ++ leBytes 2 len ++ links4 ls ++ body)) :
    ∃ rest, readHeader3 ls.length file p = some ((len, ls.map (· % 2 ^ 32)), body ++ rest) := by
  refine ⟨file.drop (p + (writeStr ty 2 ++ leBytes 2 len ++ links4 ls ++ body).length), ?_⟩
  have hne : ty ≠ [0x23#8, 0x23#8] := by
    intro e
    have := (hty.2 0x23#8 (by rw [e]; simp)).1
    exact absurd this (by decide)
  have e1 : leNat (leBytes 2 len) = len := by rw [leNat_leBytes, Nat.mod_eq_of_lt (by omega)]
  unfold readHeader3
  rw [h.drop]
  simp only [List.append_assoc]
  rw [readStr_type3 hty]
  simp only
  rw [if_neg hne, readNumber_append (leBytes_length 2 len)]
  simp only [Option.bind_some, e1]
  rw [readLinks3_mod]
  rfl

theorem sr3_read_at {file : Bytes} {p next d : Nat} {v : Sr3Vals} (h : HasAt file p (v.bytes next d)) (hn : next < 2 ^ 32) (hd : d < 2 ^ 32) :
    Sr3Obj.read file p = some ⟨[next, d], v, [], []⟩ := by
  obtain ⟨rest, hr⟩ := readHeader3_at (typeOk3_of (by decide)) (by decide) [next, d] v.write file p h
  unfold Sr3Obj.read
  have e : [next, d].map (· % 2 ^ 32) = [next, d] := by simp; omega
  rw [e] at hr
  rw [show (2 : Nat) = [next, d].length from rfl, hr, Option.bind_some]
  simp only [Sr3Vals.read, Sr3Vals.write, List.append_assoc, num4_bind, num8_bind]
  rfl

theorem srChain_read {file : Bytes} {link : Nat} {rs : List (Sr3Vals × Nat)} (h : SrChain file link rs) :
    ∀ fuel, rs.length ≤ fuel → ∃ os, readSrChain file fuel link = .ok os ∧ os.map (·.val) = rs.map (·.1) ∧
      os.map (·.links.getD 1 0) = rs.map (·.2) := by
  induction h with
  | nil =>
    intro fuel _
    refine ⟨[], ?_, rfl, rfl⟩
    cases fuel <;> rfl
  | cons p next d v rest hp hn hd hat _ ih =>
    intro fuel hf
    cases fuel with
    | zero => simp at hf
    | succ fuel =>
      obtain ⟨os, h1, h2, h3⟩ := ih fuel (by simpa using hf)
      refine ⟨⟨[next, d], v, [], []⟩ :: os, ?_, ?_, ?_⟩
      · rw [readSrChain, if_pos hp, sr3_read_at hat hn hd]
        show (readSrChain file fuel next).map _ = _
        rw [h1]
        rfl
      · rw [List.map_cons, List.map_cons, h2]
      · rw [List.map_cons, List.map_cons, h3]
        rfl

theorem group_read_at {file : Bytes} {cg size next cn tx sr : Nat} {v : Cg3Vals} (h : HasAt file cg (cg3Bytes size v next cn tx sr))
    (hs : size < 2 ^ 16) (fuel : Nat) :
    readGroupSr file fuel cg = (readSrChain file fuel (if 30 < size then sr % 2 ^ 32 else 0)).map (v.recSize.toNat, ·) := by
  obtain ⟨rest, hr⟩ := readHeader3_at (typeOk3_of (by decide)) hs [next, cn, tx] _ file cg h
  unfold readGroupSr
  rw [show (3 : Nat) = [next, cn, tx].length from rfl, hr]
  simp only [Cg3Vals.read, List.append_assoc, num2_bind, num4_bind, Nat.reduceAdd]
  by_cases h30 : 30 < size
  · simp only [h30, if_true, link4_bind]
    simp [pure, StateT.pure]
  · simp only [h30, if_false]
    simp [pure, StateT.pure]

/-! ## What is read -/

/-- **C120** (nothing listed).  Of a channel group block of 30 bytes, the size the format has, no reduction is read, whatever the link. -/
theorem C120_none_listed (file : Bytes) (cg size sr next cn tx : Nat) (v : Cg3Vals) (h : HasAt file cg (cg3Bytes size v next cn tx sr))
    (hs : size ≤ 30) (fuel : Nat) : readGroupSr file fuel cg = .ok (v.recSize.toNat, []) := by
  rw [group_read_at h (by omega), if_neg (by omega)]
  cases fuel <;> rfl

/-- **C120** (the list).  Of a channel group block that tells more than 30 bytes the reductions are listed in order, each with its number of
samples, interval and data link. -/
theorem C120_listed_partial (file : Bytes) (cg size sr next cn tx : Nat) (v : Cg3Vals) (rs : List (Sr3Vals × Nat))
    (h : HasAt file cg (cg3Bytes size v next cn tx sr)) (hs : 30 < size) (hs' : size < 2 ^ 16) (hsr : sr < 2 ^ 32) (hc : SrChain file sr rs)
    (fuel : Nat) (hf : rs.length ≤ fuel) : ∃ os, readGroupSr file fuel cg = .ok (v.recSize.toNat, os) ∧ os.map (·.val) = rs.map (·.1) ∧
      os.map (·.links.getD 1 0) = rs.map (·.2) := by
  obtain ⟨os, h1, h2, h3⟩ := srChain_read hc fuel hf
  refine ⟨os, ?_, h2, h3⟩
  rw [group_read_at h hs', if_pos hs, Nat.mod_eq_of_lt hsr, h1]
  rfl

theorem srChain_empty (file : Bytes) : ∀ (fuel link : Nat) (os : List Sr3Obj), readSrChain file fuel link = .ok os →
    ∀ o ∈ os, o.blocks = [] ∧ o.data = [] := by
  intro fuel
  induction fuel with
  | zero =>
    intro link os h o ho
    rw [readSrChain] at h
    split at h
    · exact absurd h (by simp)
    · simp only [FinRes.ok.injEq] at h
      subst h
      exact absurd ho List.not_mem_nil
  | succ fuel ih =>
    intro link os h o ho
    rw [readSrChain] at h
    split at h
    · split at h
      · exact absurd h (by simp)
      · rename_i x hx
        cases hr : readSrChain file fuel (x.links.getD 0 0) with
        | throw => rw [hr] at h; exact absurd h (by simp [FinRes.map])
        | hang => rw [hr] at h; exact absurd h (by simp [FinRes.map])
        | ok ys =>
          rw [hr] at h
          simp only [FinRes.map, FinRes.ok.injEq] at h
          subst h
          rcases List.mem_cons.1 ho with rfl | ho
          · unfold Sr3Obj.read at hx
            cases hh : readHeader3 2 file link with
            | none => rw [hh] at hx; exact absurd hx (by simp)
            | some q =>
              rw [hh, Option.bind_some] at hx
              cases hv : Sr3Vals.read q.2 with
              | none => rw [hv] at hx; exact absurd hx (by simp)
              | some w =>
                rw [hv] at hx
                simp only [Option.map_some, Option.some.injEq] at hx
                subst hx
                exact ⟨rfl, rfl⟩
          · exact ih _ _ hr o ho
    · simp only [FinRes.ok.injEq] at h
      subst h
      exact absurd ho List.not_mem_nil

/-- **C120** (no value, ever).  Whatever the file holds: `ReadSrData` of a reduction that was read succeeds and reads nothing; all values of
all channels and samples are zero and invalid, as numbers and as texts, and a conversion converts the zero. -/
theorem C120_never_value (file : Bytes) (fuel cg n : Nat) (os : List Sr3Obj) (h : readGroupSr file fuel cg = .ok (n, os)) (o : Sr3Obj)
    (ho : o ∈ os) : ∃ o', o.readData file = some o' ∧ o'.val = o.val ∧ o'.data = [] ∧
      (∀ (m : Nat) (β : Type) (get : Bytes → β) (k : Nat), o'.value m get k = some none) ∧
      ∀ (m : Nat) (gU gI gF : Bytes → BitVec 64 × Bool) (k : Nat), ∃ r, o'.raw m gU gI gF k = some r ∧
        (r.uint = ⟨(0, false), (0, false), (0, false)⟩ ∧ r.int = r.uint ∧ r.float = r.uint) ∧
        ∀ (τ : Type) (zero : τ) (fU fI fF : BitVec 64 → τ) (conv) (d : DataType),
          (srChannelValue zero fU fI fF d r).mean.2 = false ∧ (srChannelValue zero fU fI fF d r).min.2 = false ∧
          (srChannelValue zero fU fI fF d r).max.2 = false ∧ (srEngValue zero fU fI fF conv d r).mean.2 = false ∧
          (srEngValue zero fU fI fF conv d r).min.2 = false ∧ (srEngValue zero fU fI fF conv d r).max.2 = false := by
  have hb : o.blocks = [] := by
    unfold readGroupSr at h
    split at h
    · exact absurd h (by simp)
    · split at h
      · exact absurd h (by simp)
      · rename_i q hq _ v hv
        cases hr : readSrChain file fuel ((q.1.2 ++ v.1.2).getD 3 0) with
        | throw => rw [hr] at h; exact absurd h (by simp [FinRes.map])
        | hang => rw [hr] at h; exact absurd h (by simp [FinRes.map])
        | ok ys =>
          rw [hr] at h
          simp only [FinRes.map, FinRes.ok.injEq, Prod.mk.injEq] at h
          rw [h.2] at hr
          exact (srChain_empty file _ _ _ hr o ho).1
  refine ⟨{ o with data := [] }, ?_, rfl, rfl, ?_, ?_⟩
  · unfold Sr3Obj.readData
    rw [hb]
    rfl
  · intro m β get k
    unfold Sr3Obj.value
    exact if_pos (Or.inl rfl)
  · intro m gU gI gF k
    refine ⟨⟨SrOut.ofRaw 0 none, SrOut.ofRaw 0 none, SrOut.ofRaw 0 none⟩, ?_, ⟨rfl, rfl, rfl⟩, ?_⟩
    · unfold Sr3Obj.raw Sr3Obj.value
      simp
    · intro τ zero fU fI fF conv d
      cases conv <;> cases d <;> simp [srChannelValue, srEngValue, SrOut.map, SrOut.ofRaw]

/-! ## The values of records that are there -/

theorem srCopy3_in (data : Bytes) (pos n : Nat) (buffer : Bytes) (hp : pos + n < 2 ^ 31) (h : pos + n ≤ data.length) :
    srCopy3 data pos n buffer = some (dlPut buffer 0 ((data.drop pos).take n)) := by
  unfold srCopy3
  rw [toInt32_of_lt (by omega)]
  have e : (((pos : Int) + n) % (2 ^ 64 : Int)).toNat = pos + n := by omega
  rw [if_neg (by omega), e, if_pos h, if_neg (by omega)]
  rfl

theorem sr3Rows_length (n : Nat) (rows : List (Bytes × Bytes × Bytes)) (h : SrSized n rows) : (sr3Rows rows).length = rows.length * (3 * n) := by
  unfold sr3Rows
  apply flatMap_len
  intro r hr
  obtain ⟨h1, h2, h3⟩ := h r hr
  rw [List.length_append, List.length_append]
  omega

theorem sr3Rows_drop (n : Nat) : ∀ (rows : List (Bytes × Bytes × Bytes)), SrSized n rows → ∀ (k : Nat) (row : Bytes × Bytes × Bytes),
    rows[k]? = some row → ∃ t, (sr3Rows rows).drop (k * (3 * n)) = row.1 ++ (row.2.1 ++ (row.2.2 ++ t)) := by
  intro rows
  induction rows with
  | nil => intro _ k row h; simp at h
  | cons r rows ih =>
    intro hs k row h
    cases k with
    | zero =>
      simp only [List.getElem?_cons_zero, Option.some.injEq] at h
      subst h
      exact ⟨sr3Rows rows, by simp [sr3Rows, List.append_assoc]⟩
    | succ k =>
      obtain ⟨h1, h2, h3⟩ := hs r List.mem_cons_self
      obtain ⟨t, ht⟩ := ih (fun x hx => hs x (List.mem_cons_of_mem _ hx)) k row (by simpa using h)
      refine ⟨t, ?_⟩
      have e : sr3Rows (r :: rows) = (r.1 ++ (r.2.1 ++ r.2.2)) ++ sr3Rows rows := by simp [sr3Rows]
      have el : (r.1 ++ (r.2.1 ++ r.2.2)).length = 3 * n := by rw [List.length_append, List.length_append]; omega
      rw [e, Nat.add_mul, Nat.one_mul, Nat.add_comm, ← List.drop_drop, List.drop_left' el, ht]

theorem drop_take_part {l a b c t : Bytes} {p n : Nat} (h : l.drop p = a ++ (b ++ (c ++ t))) (ha : a.length = n) (hb : b.length = n)
    (hc : c.length = n) : (l.drop p).take n = a ∧ (l.drop (p + n)).take n = b ∧ (l.drop (p + 2 * n)).take n = c := by
  refine ⟨?_, ?_, ?_⟩
  · rw [h, List.take_left' ha]
  · rw [← List.drop_drop, h, List.drop_left' ha, List.take_left' hb]
  · rw [← List.drop_drop, h, show 2 * n = n + n by omega, ← List.drop_drop, List.drop_left' ha, List.drop_left' hb, List.take_left' hc]

/-- **C120** (values of data that are there).  A reduction that holds less than 2 GiB of records gives the stored mean, minimum and maximum
of each of its samples. -/
theorem C120_values_partial {β : Type} (o : Sr3Obj) (n : Nat) (rows : List (Bytes × Bytes × Bytes)) (hn : 0 < n) (hs : SrSized n rows)
    (hd : o.data = sr3Rows rows) (hl : (sr3Rows rows).length < 2 ^ 31) (get : Bytes → β) (k : Nat) (row : Bytes × Bytes × Bytes)
    (hk : rows[k]? = some row) : o.value n get k = some (some (get row.1, get row.2.1, get row.2.2)) := by
  obtain ⟨t, ht⟩ := sr3Rows_drop n rows hs k row hk
  have hkl : k < rows.length := by
    by_cases h : k < rows.length
    · exact h
    · rw [List.getElem?_eq_none (by omega)] at hk; exact absurd hk (by simp)
  obtain ⟨h1, h2, h3⟩ := hs row (List.mem_of_getElem? hk)
  have hlen := sr3Rows_length n rows hs
  have hle : (k + 1) * (3 * n) ≤ rows.length * (3 * n) := Nat.mul_le_mul_right _ hkl
  have he : (k + 1) * (3 * n) = k * (3 * n) + 3 * n := by rw [Nat.add_mul, Nat.one_mul]
  have e3 : k * 3 * n = k * (3 * n) := Nat.mul_assoc k 3 n
  obtain ⟨q1, q2, q3⟩ := drop_take_part ht h1 h2 h3
  unfold Sr3Obj.value
  rw [hd, e3, if_neg]
  · rw [srCopy3_in _ _ _ _ (by omega) (by omega), q1, dlPut_all _ _ (by simp; omega), Option.bind_eq_bind, Option.bind_some,
      srCopy3_in _ _ _ _ (by omega) (by omega), q2, dlPut_all _ _ (by omega), Option.bind_some,
      srCopy3_in _ _ _ _ (by omega) (by omega), q3, dlPut_all _ _ (by omega), Option.bind_some]
  · rintro (h | h)
    · rw [h] at hlen
      have : 3 * n ≤ 0 := by
        rw [List.length_nil] at hlen
        omega
      omega
    · omega

/-- **C120** (behind the last sample).  Samples behind the last one are records of zeros, not an error. -/
theorem C120_beyond_end {β : Type} (o : Sr3Obj) (n k : Nat) (hn : 0 < n) (hne : o.data ≠ []) (hend : o.data.length ≤ k * 3 * n)
    (hsize : k * 3 * n + 3 * n < 2 ^ 31) (get : Bytes → β) :
    o.value n get k = some (some (get (List.replicate n 0), get (List.replicate n 0), get (List.replicate n 0))) := by
  have out : ∀ pos buffer, k * 3 * n ≤ pos → pos + n < 2 ^ 31 → srCopy3 o.data pos n buffer = some buffer := by
    intro pos buffer h1 h2
    unfold srCopy3
    rw [toInt32_of_lt (by omega), if_neg (by omega), if_neg (by omega)]
  unfold Sr3Obj.value
  rw [if_neg (by rintro (h | h); exact hne h; omega), out _ _ (by omega) (by omega), Option.bind_eq_bind, Option.bind_some,
    out _ _ (by omega) (by omega), Option.bind_some, out _ _ (by omega) (by omega), Option.bind_some]

/-- **C120** (2 GiB).  The record that reaches over byte 2³¹ of the data cannot be asked for: the end of it is no `int`. -/
theorem C120_overflow {β : Type} (o : Sr3Obj) (n k : Nat) (hne : o.data ≠ []) (hn : 0 < n) (hlow : k * 3 * n < 2 ^ 31) (hhigh : 2 ^ 31 ≤ k * 3 * n + n)
    (get : Bytes → β) : o.value n get k = none := by
  unfold Sr3Obj.value
  rw [if_neg (by rintro (h | h); exact hne h; omega)]
  have : srCopy3 o.data (k * 3 * n) n (List.replicate n 0) = none := by
    unfold srCopy3
    rw [toInt32_of_lt hlow, if_pos (by omega)]
  rw [this]
  rfl

/-! ## The public functions -/

/-- **C120** (data types).  Numbers are read in the type of the channel and then converted; texts, bytes, dates and complex numbers have no
reduction. -/
theorem C120_by_type {τ : Type} (zero : τ) (fU fI fF : BitVec 64 → τ) (r : SrRaw) :
    (∀ d, d = .unsignedLe ∨ d = .unsignedBe → srChannelValue zero fU fI fF d r =
      ⟨(fU r.uint.mean.1, r.uint.mean.2), (fU r.uint.min.1, r.uint.min.2), (fU r.uint.max.1, r.uint.max.2)⟩) ∧
    (∀ d, d = .signedLe ∨ d = .signedBe → srChannelValue zero fU fI fF d r =
      ⟨(fI r.int.mean.1, r.int.mean.2), (fI r.int.min.1, r.int.min.2), (fI r.int.max.1, r.int.max.2)⟩) ∧
    (∀ d, d = .floatLe ∨ d = .floatBe → srChannelValue zero fU fI fF d r =
      ⟨(fF r.float.mean.1, r.float.mean.2), (fF r.float.min.1, r.float.min.2), (fF r.float.max.1, r.float.max.2)⟩) ∧
    ∀ d conv, d ∉ [DataType.unsignedLe, .unsignedBe, .signedLe, .signedBe, .floatLe, .floatBe] →
      srChannelValue zero fU fI fF d r = ⟨(zero, false), (zero, false), (zero, false)⟩ ∧
      srEngValue zero fU fI fF conv d r = ⟨(zero, false), (zero, false), (zero, false)⟩ := by
  refine ⟨?_, ?_, ?_, ?_⟩
  · rintro d (rfl | rfl) <;> rfl
  · rintro d (rfl | rfl) <;> rfl
  · rintro d (rfl | rfl) <;> rfl
  · intro d conv hd
    cases conv <;> cases d <;> first | exact ⟨rfl, rfl⟩ | exact absurd hd (by decide)

/-- **C120** (engineering values).  Without conversion they are the channel values; with one, each is the converted value, valid if the
channel value is valid and could be converted. -/
theorem C120_eng {τ : Type} (zero : τ) (fU fI fF : BitVec 64 → τ) (cU cI cF : BitVec 64 → τ × Bool) (r : SrRaw) :
    (∀ d, srEngValue zero fU fI fF none d r = srChannelValue zero fU fI fF d r) ∧
    (∀ d, d = .unsignedLe ∨ d = .unsignedBe → srEngValue zero fU fI fF (some (cU, cI, cF)) d r =
      ⟨((cU r.uint.mean.1).1, r.uint.mean.2 && (cU r.uint.mean.1).2), ((cU r.uint.min.1).1, r.uint.min.2 && (cU r.uint.min.1).2),
        ((cU r.uint.max.1).1, r.uint.max.2 && (cU r.uint.max.1).2)⟩) ∧
    (∀ d, d = .signedLe ∨ d = .signedBe → srEngValue zero fU fI fF (some (cU, cI, cF)) d r =
      ⟨((cI r.int.mean.1).1, r.int.mean.2 && (cI r.int.mean.1).2), ((cI r.int.min.1).1, r.int.min.2 && (cI r.int.min.1).2),
        ((cI r.int.max.1).1, r.int.max.2 && (cI r.int.max.1).2)⟩) ∧
    (∀ d, d = .floatLe ∨ d = .floatBe → srEngValue zero fU fI fF (some (cU, cI, cF)) d r =
      ⟨((cF r.float.mean.1).1, r.float.mean.2 && (cF r.float.mean.1).2), ((cF r.float.min.1).1, r.float.min.2 && (cF r.float.min.1).2),
        ((cF r.float.max.1).1, r.float.max.2 && (cF r.float.max.1).2)⟩) := by
  refine ⟨fun _ => rfl, ?_, ?_, ?_⟩ <;> rintro d (rfl | rfl) <;> rfl

/-- **C120** (from the data to the answer).  What the three functions read of data that are there is handed on part by part, in the type of
the channel. -/
theorem C120_raw (o : Sr3Obj) (n : Nat) (rows : List (Bytes × Bytes × Bytes)) (hn : 0 < n) (hs : SrSized n rows)
    (hd : o.data = sr3Rows rows) (hl : (sr3Rows rows).length < 2 ^ 31) (gU gI gF : Bytes → BitVec 64 × Bool) (k : Nat)
    (row : Bytes × Bytes × Bytes) (hk : rows[k]? = some row) :
    o.raw n gU gI gF k = some ⟨⟨gU row.1, gU row.2.1, gU row.2.2⟩, ⟨gI row.1, gI row.2.1, gI row.2.2⟩, ⟨gF row.1, gF row.2.1, gF row.2.2⟩⟩ := by
  unfold Sr3Obj.raw
  rw [C120_values_partial o n rows hn hs hd hl gU k row hk, C120_values_partial o n rows hn hs hd hl gI k row hk,
    C120_values_partial o n rows hn hs hd hl gF k row hk]
  rfl

/-! ## Examples -/

/-- A group of one byte per record whose only reduction has one sample: mean 2, minimum 1, maximum 3. -/
def exSr3File (size : Nat) : Bytes :=
  [0] ++ (cg3Bytes size ⟨1, 1, 1, 1⟩ 0 0 0 31 ++ ((⟨1, 0⟩ : Sr3Vals).bytes 0 55 ++ [2, 1, 3]))

theorem exSr3_group (size : Nat) : HasAt (exSr3File size) 1 (cg3Bytes size ⟨1, 1, 1, 1⟩ 0 0 0 31) := by
  intro i hi
  unfold exSr3File
  rw [List.getElem?_append_right (by simp), List.getElem?_append_left (by simpa using hi)]
  simp

theorem exSr3_chain : SrChain (exSr3File 30) 31 [(⟨1, 0⟩, 55)] := by
  refine SrChain.cons 31 0 55 _ [] (by decide) (by decide) (by decide) ?_ SrChain.nil
  unfold HasAt
  decide

theorem exSr3_chain31 : SrChain (exSr3File 31) 31 [(⟨1, 0⟩, 55)] := by
  refine SrChain.cons 31 0 55 _ [] (by decide) (by decide) (by decide) ?_ SrChain.nil
  unfold HasAt
  decide

/-- The stored reductions of the example are not read. -/
theorem C120_false : ¬ C120_Statement := by
  intro h
  obtain ⟨fuel, os, h1, h2, -⟩ := h (exSr3File 30) 1 31 0 0 0 ⟨1, 1, 1, 1⟩ _ (exSr3_group 30) (by decide) exSr3_chain
  rw [C120_none_listed _ 1 30 31 0 0 0 _ (exSr3_group 30) (by decide)] at h1
  simp only [FinRes.ok.injEq, Prod.mk.injEq, true_and] at h1
  subst h1
  exact absurd h2 (by simp)

example : readGroupSr (exSr3File 30) 5 1 = .ok (1, []) :=
  C120_none_listed _ 1 30 31 0 0 0 _ (exSr3_group 30) (by decide) 5

example : ∃ os, readGroupSr (exSr3File 31) 5 1 = .ok (1, os) ∧ os.map (·.val) = [⟨1, 0⟩] ∧ os.map (·.links.getD 1 0) = [55] :=
  C120_listed_partial _ 1 31 31 0 0 0 _ _ (exSr3_group 31) (by decide) (by decide) (by decide) exSr3_chain31 5 (by decide)

/-- The values are stored, and none is given. -/
example : ∃ os, readGroupSr (exSr3File 31) 5 1 = .ok (1, os) ∧ os.length = 1 ∧ HasAt (exSr3File 31) 55 (sr3Rows [([2], [1], [3])]) ∧
    ∀ o ∈ os, ∃ o', o.readData (exSr3File 31) = some o' ∧ o'.value 1 id 0 = some none := by
  obtain ⟨os, h1, h2, -⟩ := C120_listed_partial _ 1 31 31 0 0 0 _ _ (exSr3_group 31) (by decide) (by decide) (by decide) exSr3_chain31 5 (by decide)
  refine ⟨os, h1, ?_, ?_, ?_⟩
  · have := congrArg List.length h2
    simpa using this
  · unfold HasAt
    decide
  · intro o ho
    obtain ⟨o', e1, -, -, e2, -⟩ := C120_never_value _ _ _ _ _ h1 o ho
    exact ⟨o', e1, e2 1 Bytes id 0⟩

example : (⟨[0, 55], ⟨2, 0⟩, [], [2, 1, 3, 5, 4, 6]⟩ : Sr3Obj).value 1 id 1 = some (some ([5], [4], [6])) :=
  C120_values_partial _ 1 [([2], [1], [3]), ([5], [4], [6])] (by decide) (by unfold SrSized; decide) rfl (by decide) id 1 _ rfl

example : (⟨[0, 55], ⟨1, 0⟩, [], [2, 1, 3]⟩ : Sr3Obj).value 1 id 7 = some (some ([0], [0], [0])) :=
  C120_beyond_end _ 1 7 (by decide) (by decide) (by decide) (by decide) id

example : (⟨[0, 55], ⟨1, 0⟩, [], [2, 1, 3]⟩ : Sr3Obj).value 2 id 357913941 = none :=
  C120_overflow _ 2 357913941 (by decide) (by decide) (by decide) (by decide) id

example : (⟨[0, 55], ⟨1, 0⟩, [], [2, 1, 3]⟩ : Sr3Obj).raw 1 (fun b => ((b.getD 0 0).zeroExtend 64, true)) (fun b => ((b.getD 0 0).signExtend 64, true))
    (fun _ => (0, true)) 0 = some ⟨⟨(2, true), (1, true), (3, true)⟩, ⟨(2, true), (1, true), (3, true)⟩, ⟨(0, true), (0, true), (0, true)⟩⟩ :=
  C120_raw _ 1 [([2], [1], [3])] (by decide) (by unfold SrSized; decide) rfl (by decide) _ _ _ 0 _ rfl

end Mdf
