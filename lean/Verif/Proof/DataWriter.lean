import Verif.Spec.DataWriter
import Verif.Proof.SessionRun

/-!
Lemmas for C85: setting a value through a layout changes the bytes of its channel only.
-/

namespace Mdf

/-- The object as a number. -/
def CppVal.nat : CppVal → Nat
  | .int _ n x => (BitVec.ofInt (8 * n) x).toNat
  | .flt _ bits => bits.toNat

theorem CppVal.object_eq (v : CppVal) : v.object = leBytes v.size v.nat := by cases v <;> rfl

/-- The byte order of a channel of numbers. -/
def numOrder : DataType → Option Order
  | .unsignedLe | .signedLe | .floatLe => some .le
  | .unsignedBe | .signedBe | .floatBe => some .be
  | _ => none

theorem dwSet_eq (buf : Bytes) (l : DwLayout) (v : CppVal) : dwSet buf l v =
    if l.dataBytes ≠ v.size then some buf else if l.byteOffset + l.dataBytes > buf.length then some buf
    else match numOrder l.dataType with
      | some o => wrBytes buf l.byteOffset (orderBytes o v.size v.nat)
      | none => some buf := by
  unfold dwSet
  rw [CppVal.object_eq]
  split
  · rfl
  · split
    · rfl
    · cases l.dataType <;> rfl

theorem dwLayouts_mem {l : DwLayout} (cs : List Chan) : ∀ j, l ∈ dwLayouts j cs → ∃ k c, cs[k]? = some c ∧ l = DwLayout.of c (j + k) ∧
    c.type ≠ .master := by
  induction cs with
  | nil => intro j h; simp [dwLayouts] at h
  | cons c cs ih =>
    intro j h
    rw [dwLayouts] at h
    split at h
    · obtain ⟨k, d, h1, h2, h3⟩ := ih _ h
      exact ⟨k + 1, d, h1, by rw [h2, Nat.add_assoc, Nat.add_comm 1], h3⟩
    · rename_i hm
      rcases List.mem_cons.1 h with rfl | h
      · exact ⟨0, c, rfl, rfl, hm⟩
      · obtain ⟨k, d, h1, h2, h3⟩ := ih _ h
        exact ⟨k + 1, d, h1, by rw [h2, Nat.add_assoc, Nat.add_comm 1], h3⟩

theorem mem_dwLayouts (cs : List Chan) : ∀ j {k : Nat} {c : Chan}, cs[k]? = some c → c.type ≠ .master →
    DwLayout.of c (j + k) ∈ dwLayouts j cs := by
  induction cs with
  | nil => intro j k c h; simp at h
  | cons d cs ih =>
    intro j k c h hm
    rw [dwLayouts]
    cases k with
    | zero =>
      simp only [List.getElem?_cons_zero, Option.some.injEq] at h
      subst h
      rw [if_neg hm]
      exact List.mem_cons_self
    | succ k =>
      have := ih (j + 1) h hm
      rw [Nat.add_assoc, Nat.add_comm 1] at this
      split
      · exact this
      · exact List.mem_cons_of_mem _ this

theorem SameBits.refl (c : Chan) (i : Nat) (buf : Bytes) : SameBits c i buf buf := ⟨rfl, rfl, rfl⟩

theorem SameBits.trans {c : Chan} {i : Nat} {a b d : Bytes} (h1 : SameBits c i a b) (h2 : SameBits c i b d) : SameBits c i a d :=
  ⟨h2.len.trans h1.len, h2.slice.trans h1.slice, h2.valid.trans h1.valid⟩

/-- Setting through a layout. -/
theorem dwSet_done {a : Chan} {buf : Bytes} (h : InRecord a buf) (k : Nat) (v : CppVal) :
    ∃ out, dwSet buf (DwLayout.of a k) v = some out ∧ FramedBy a buf out := by
  rw [dwSet_eq]
  by_cases h1 : (DwLayout.of a k).dataBytes ≠ v.size
  · exact ⟨buf, by rw [if_pos h1], FramedBy.refl ..⟩
  rw [if_neg h1]
  replace h1 : a.dataBytes = v.size := Decidable.not_not.1 h1
  by_cases h2 : (DwLayout.of a k).byteOffset + (DwLayout.of a k).dataBytes > buf.length
  · exact ⟨buf, by rw [if_pos h2], FramedBy.refl ..⟩
  rw [if_neg h2]
  show ∃ out, (match numOrder a.dataType with
      | some o => wrBytes buf a.byteOffset (orderBytes o v.size v.nat)
      | none => some buf) = some out ∧ _
  cases numOrder a.dataType with
  | none => exact ⟨buf, rfl, FramedBy.refl ..⟩
  | some o =>
    have hsp := span_of_index a (i := 0) (by omega)
    exact wrBytes_framed h (Nat.le_refl _) (by rw [orderBytes_length]; omega)

/-- Setting the channel itself: its first element has the bytes, its validity bits and its other elements stay. -/
theorem dwSet_own {c : Chan} {buf : Bytes} (h : InRecord c buf) {o : Order} (ho : numOrder c.dataType = some o) (k : Nat) {v : CppVal}
    (hv : v.size = c.dataBytes) : ∃ out, dwSet buf (DwLayout.of c k) v = some out ∧ out.length = buf.length ∧
      (out.drop c.byteOffset).take c.dataBytes = orderBytes o c.dataBytes v.nat ∧
      ∀ i, i < max 1 c.arraySize → c.ValidPosOk i → c.getValid out i = c.getValid buf i ∧ (i ≠ 0 → SameBits c i buf out) := by
  have hsp := span_of_index c (i := 0) (by omega)
  have hin := h.inside
  have hdat := h.data
  have hw := wrBytes_eq_some (buf := buf) (off := c.byteOffset) (data := orderBytes o v.size v.nat)
    (by rw [orderBytes_length]; omega)
  generalize hout : buf.take c.byteOffset ++ orderBytes o v.size v.nat ++ buf.drop (c.byteOffset + (orderBytes o v.size v.nat).length) = out at hw
  have hlen := wrBytes_length hw
  have hget := wrBytes_getElem? hw
  rw [orderBytes_length] at hget
  refine ⟨out, ?_, hlen, ?_, ?_⟩
  · rw [dwSet_eq, if_neg (by simp [DwLayout.of, hv]), if_neg (by simp only [DwLayout.of]; omega)]
    simp only [DwLayout.of, ho]
    exact hw
  · have := wrBytes_slice hw
    rw [orderBytes_length, hv] at this
    exact this
  · intro i hi vp
    have hval : c.getValid out i = c.getValid buf i := by
      rw [getValid_eq c i out vp, getValid_eq c i buf vp]
      congr 2
      apply bitAt_eq_of_byte
      rw [hget, if_neg (by unfold Chan.validPos; omega)]
    refine ⟨hval, fun h0 => ⟨hlen, ?_, hval⟩⟩
    apply List.ext_getElem?
    intro j
    rw [List.getElem?_take, List.getElem?_take]
    by_cases hj : j < c.dataBytes
    · rw [if_pos hj, if_pos hj, List.getElem?_drop, List.getElem?_drop, hget, if_neg]
      have : c.dataBytes ≤ c.dataBytes * i := Nat.le_mul_of_pos_right _ (by omega)
      omega
    · rw [if_neg hj, if_neg hj]

/-- What is read of an element with these bytes. -/
theorem channelValue_bytes {c : Chan} {buf : Bytes} (h : Promised c 0 buf) (hn : c.Numeric) {o : Order}
    (ho : numOrder c.dataType = some o) {v : CppVal} (ht : v.Typed) (hs : v.Suits c) (hv : v.size = c.dataBytes)
    (hb : (buf.drop c.byteOffset).take c.dataBytes = orderBytes o c.dataBytes v.nat) :
    c.channelValue [] buf 0 = (c.getValid buf 0, v.plain c) := by
  obtain ⟨hd0, hty, hvm, hvd⟩ := hn
  rcases h.kind with ⟨-, hsz, hfl⟩ | hs' | hs'
  case inr.inl => exfalso; rcases hd0 with e | e | e | e | e | e <;> (have := hs'.1; rw [e] at this; simp at this)
  case inr.inr => exact absurd hs'.2.2.2 hty
  have pl := h.inRec.placed h.idx h.vp hsz
  obtain ⟨n, hn, hc, hdb, hp, hin⟩ := pl.bytes
  obtain ⟨g1, g2, g3⟩ := pl.get
  have hsmall := pl.small
  have hdat := pl.data
  rw [hdb] at hb hv
  have hkey : fieldOf o buf (c.pos 0) c.bitCount = v.nat % 2 ^ c.bitCount := by
    rw [hp, hc, Nat.mul_zero, Nat.add_zero]
    exact fieldOf_bytes o buf _ n _ (by omega) hb
  cases v with
  | int sg m x =>
    have hm : m = n := hv
    subst hm
    have hnat : (CppVal.int sg m x).nat % 2 ^ c.bitCount = (BitVec.ofInt c.bitCount x).toNat := by
      show (BitVec.ofInt (8 * m) x).toNat % _ = _
      rw [hc]
      exact Nat.mod_eq_of_lt (BitVec.isLt _)
    rw [hnat] at hkey
    rcases hs with ⟨hd, lo, hi⟩ | ⟨hd, lo, hi⟩
    · have hx : (BitVec.ofInt c.bitCount x).toNat = x.toNat := by
        rw [BitVec.toNat_ofInt]
        have : x % ((2 ^ c.bitCount : Nat) : Int) = x := Int.emod_eq_of_lt lo (by rw [Int.natCast_pow]; exact hi)
        rw [this]
      rw [hx] at hkey
      have hlt : x.toNat < 2 ^ 64 := by
        have h1 : (2 : Int) ^ c.bitCount ≤ 2 ^ 64 := by
          have : (2 : Nat) ^ c.bitCount ≤ 2 ^ 64 := Nat.pow_le_pow_right (by omega) (by omega)
          have := Int.ofNat_le.2 this
          simpa using this
        omega
      have hplain : (CppVal.int sg m x).plain c = .num x.toNat := by
        show (if _ then _ else _) = _
        rw [if_pos hd]
      rw [hplain]
      unfold Chan.channelValue
      rcases hd with hd | hd
      · rw [hd] at ho
        cases ho
        simp only [hd]
        rw [(C05_get_unsigned_le c buf 0 hd g1 g2 (by omega)).1 g3, show fieldLe buf _ _ = _ from hkey]
        simp only [Res.shown]
        rw [BitVec.toNat_ofNat, Nat.mod_eq_of_lt hlt]
      · rw [hd] at ho
        cases ho
        simp only [hd]
        rw [(C05_get_unsigned_be c buf 0 hd hty g1 g2 (by omega)).1 g3, show fieldBe buf _ _ = _ from hkey]
        simp only [Res.shown]
        rw [BitVec.toNat_ofNat, Nat.mod_eq_of_lt hlt]
    · have hplain : (CppVal.int sg m x).plain c = .int x := by
        show (if _ then _ else _) = _
        rw [if_neg (by rcases hd with e | e <;> simp [e])]
      have hx : Int.bmod ((BitVec.ofInt c.bitCount x).toNat : Int) (2 ^ c.bitCount) = x := by
        rw [← BitVec.toInt_eq_toNat_bmod, BitVec.toInt_ofInt]
        obtain ⟨k, hk⟩ : ∃ k, c.bitCount = k + 1 := ⟨c.bitCount - 1, by omega⟩
        rw [hk] at lo hi ⊢
        simp only [Nat.add_sub_cancel] at lo hi
        have hp : (2 ^ (k + 1) : Nat) = 2 * 2 ^ k := by rw [Nat.pow_succ]; omega
        have hc : ((2 ^ k : Nat) : Int) = (2 : Int) ^ k := by simp
        rw [Int.bmod_eq_of_le] <;> omega
      rw [hplain]
      unfold Chan.channelValue
      rcases hd with hd | hd
      · rw [hd] at ho
        cases ho
        simp only [hd]
        obtain ⟨r, e1, e2⟩ := (C05_get_signed .le c buf 0 hd (by omega) (by omega) g1 g2 (by omega)).1 g3
        rw [hkey, hx] at e2
        rw [e1]
        simp only [Res.shown, e2]
      · rw [hd] at ho
        cases ho
        simp only [hd]
        obtain ⟨r, e1, e2⟩ := (C05_get_signed .be c buf 0 hd (by omega) (by omega) g1 g2 (by omega)).1 g3
        rw [hkey, hx] at e2
        rw [e1]
        simp only [Res.shown, e2]
  | flt m bits =>
    obtain ⟨-, hlt⟩ := ht
    obtain ⟨hd, h8⟩ := hs
    have hnat : (CppVal.flt m bits).nat % 2 ^ c.bitCount = bits.toNat := by
      rw [← h8]
      exact Nat.mod_eq_of_lt hlt
    rw [hnat] at hkey
    show _ = (_, ChanVal.float bits)
    unfold Chan.channelValue
    rcases hd with hd | hd
    · rw [hd] at ho
      cases ho
      have := hfl (Or.inl hd)
      simp only [hd]
      rw [(C05_get_float .le c buf 0 hd (by omega) g1 g2 (by omega)).1 g3, hkey]
      simp only [Res.shown, BitVec.ofNat_toNat, BitVec.setWidth_eq]
    · rw [hd] at ho
      cases ho
      have := hfl (Or.inr hd)
      simp only [hd]
      rw [(C05_get_float .be c buf 0 hd (by omega) g1 g2 (by omega)).1 g3, hkey]
      simp only [Res.shown, BitVec.ofNat_toNat, BitVec.setWidth_eq]

/-- The buffer and what the calls have given for a channel. -/
structure DwHolds (c : Chan) (size : Nat) (buf : Bytes) (cur : Bytes × Option CppVal) : Prop where
  len : buf.length = size
  base : cur.1.length = size
  same : ∀ i, i < max 1 c.arraySize → c.ValidPosOk i → cur.2 = none ∨ i ≠ 0 → SameBits c i cur.1 buf
  own : ∀ v, cur.2 = some v → (∃ o, numOrder c.dataType = some o ∧
    (buf.drop c.byteOffset).take c.dataBytes = orderBytes o c.dataBytes v.nat) ∧ (c.ValidPosOk 0 → c.getValid buf 0 = c.getValid cur.1 0)

theorem DwHolds.start (c : Chan) {size : Nat} {buf : Bytes} (h : buf.length = size) : DwHolds c size buf (buf, none) :=
  ⟨h, h, fun _ _ _ _ => SameBits.refl .., fun _ h => by cases h⟩

theorem Chan.Numeric.order {c : Chan} (h : c.Numeric) : ∃ o, numOrder c.dataType = some o := by
  rcases h.1 with e | e | e | e | e | e <;> rw [e] <;> exact ⟨_, rfl⟩

theorem DwCalls.tail {s : Ses} {g : Nat} {a : DwCall} {calls : List DwCall} (h : DwCalls s g (a :: calls)) : DwCalls s g calls :=
  ⟨fun l v hm => h.layout l v (List.mem_cons_of_mem _ hm), fun r n hm => h.raw r n (List.mem_cons_of_mem _ hm)⟩

theorem dw_run {s : Ses} (hf : s.Fits) {g k : Nat} {c : Chan} (hc : s.chan g k = some c)
    (hk : c.Numeric ∨ c.Sized) (calls : List DwCall) : ∀ {w : DataWriter} {cur : Bytes × Option CppVal}, DwCalls s g calls →
    (∀ l v, .set l v ∈ calls → l.index = k → c.Numeric ∧ v.size = c.dataBytes) → DwHolds c (s.layout g).recordSize w.buffer cur →
    ∃ w', w.run calls = some w' ∧ w'.id = w.id ∧ DwHolds c (s.layout g).recordSize w'.buffer (dwGiven (s.layout g).recordSize k cur calls) := by
  induction calls with
  | nil => intro w cur _ _ h; exact ⟨w, rfl, rfl, h⟩
  | cons a calls ih =>
    intro w cur hcalls hsuits h
    have hs' : ∀ l v, .set l v ∈ calls → l.index = k → c.Numeric ∧ v.size = c.dataBytes :=
      fun l v hm => hsuits l v (List.mem_cons_of_mem _ hm)
    cases a with
    | reset =>
      have hz : DwHolds c (s.layout g).recordSize (List.replicate w.buffer.length 0) (List.replicate (s.layout g).recordSize 0, none) := by
        rw [h.len]
        exact DwHolds.start c (by simp)
      obtain ⟨w', h1, h2, h3⟩ := ih (w := { w with buffer := List.replicate w.buffer.length 0 }) hcalls.tail hs' hz
      exact ⟨w', h1, h2, h3⟩
    | raw r n =>
      rw [DataWriter.run, DataWriter.step]
      unfold dwRaw
      cases r with
      | none =>
        have hb : ∃ b, (if n ≠ w.buffer.length then some (false, w.buffer) else if n = 0 then some (true, w.buffer)
            else some (false, w.buffer)) = some (b, w.buffer) := by
          split
          · exact ⟨_, rfl⟩
          · split <;> exact ⟨_, rfl⟩
        obtain ⟨b, hb⟩ := hb
        simp only
        rw [hb]
        obtain ⟨w', h1, h2, h3⟩ := ih (w := w) hcalls.tail hs' h
        exact ⟨w', h1, h2, h3⟩
      | some r =>
        have hr := hcalls.raw r n List.mem_cons_self
        simp only [dwGiven]
        by_cases hn : n = (s.layout g).recordSize
        · rw [if_pos hn, if_neg (by rw [h.len]; exact fun x => x hn)]
          have hres : (if n = 0 then some (true, w.buffer) else if r.length < n then none else some (true, r.take n)) = some (true, r) := by
            by_cases h0 : n = 0
            · rw [if_pos h0]
              have e1 : w.buffer = [] := List.length_eq_zero_iff.1 (by rw [h.len, ← hn, h0])
              have e2 : r = [] := List.length_eq_zero_iff.1 (by omega)
              rw [e1, e2]
            · rw [if_neg h0, if_neg (by omega), ← hr, List.take_length]
          rw [hres]
          obtain ⟨w', h1, h2, h3⟩ := ih (w := { w with buffer := r }) hcalls.tail hs' (DwHolds.start c (buf := r) (by omega))
          exact ⟨w', h1, h2, h3⟩
        · rw [if_neg hn, if_pos (by rw [h.len]; exact hn)]
          obtain ⟨w', h1, h2, h3⟩ := ih (w := w) hcalls.tail hs' h
          exact ⟨w', h1, h2, h3⟩
    | set l v =>
      obtain ⟨k', a, ha, hl, -⟩ := dwLayouts_mem _ 0 (hcalls.layout l v List.mem_cons_self)
      rw [Nat.zero_add] at hl
      have hca : s.chan g k' = some a := ha
      obtain ⟨hra, hnda⟩ := hf.inRecord hca h.len
      obtain ⟨hrc, hndc⟩ := hf.inRecord hc h.len
      rw [DataWriter.run, DataWriter.step, dwGiven]
      by_cases hkk : k' = k
      · subst hkk
        have hac : a = c := Option.some.inj (hca.symm.trans hc)
        subst hac
        have hidx : l.index = k' := by rw [hl]; rfl
        obtain ⟨hnum, hsz⟩ := hsuits l v List.mem_cons_self hidx
        obtain ⟨o, ho⟩ := hnum.order
        obtain ⟨out, e1, e2, e3, e4⟩ := dwSet_own hrc ho k' hsz
        rw [if_pos hidx, hl, e1]
        refine ih (w := { w with buffer := out }) hcalls.tail hs' ⟨by rw [← h.len]; exact e2, h.base, ?_, ?_⟩
        · intro i hi vp h0
          have h0 : i ≠ 0 := h0.resolve_left (by simp)
          exact (h.same i hi vp (Or.inr h0)).trans ((e4 i hi vp).2 h0)
        · intro v' hv'
          simp only [Option.some.injEq] at hv'
          subst hv'
          refine ⟨⟨o, ho, e3⟩, fun vp => ((e4 0 (by omega) vp).1).trans ?_⟩
          by_cases hcur : cur.2 = none
          · exact (h.same 0 (by omega) vp (Or.inl hcur)).valid
          · obtain ⟨u, hu⟩ := Option.ne_none_iff_exists'.1 hcur
            exact (h.own u hu).2 vp
      · have hidx : l.index ≠ k := by rw [hl]; exact hkk
        obtain ⟨out, e1, e2⟩ := dwSet_done hra k' v
        rw [if_neg hidx, hl, e1]
        have hsame : ∀ i, i < max 1 c.arraySize → SameBits c i w.buffer out := by
          intro i hi
          exact e2.same (hf.promised hc h.len (hk.elim Or.inl fun h => Or.inr (Or.inl h)) hi) hra (by rw [hnda, hndc])
            (hf.before hc hca hkk)
        refine ih (w := { w with buffer := out }) hcalls.tail hs' ⟨by rw [← h.len]; exact e2.len, h.base, ?_, ?_⟩
        · intro i hi vp h0
          exact (h.same i hi vp h0).trans (hsame i hi)
        · intro u hu
          obtain ⟨⟨o, ho, hb⟩, hv⟩ := h.own u hu
          have h0 := hsame 0 (by omega)
          refine ⟨⟨o, ho, ?_⟩, fun vp => h0.valid.trans (hv vp)⟩
          have := h0.slice
          rw [Nat.mul_zero, Nat.add_zero] at this
          rw [this]
          exact hb

end Mdf
