import Verif.Proof.Can
import Verif.Proof.Store

namespace Mdf

/-! ### the saved record -/

/-- The bytes after the members of fixed size. -/
def CanCfg.tail (cfg : CanCfg) (m : CanMsg) : Bytes :=
  match cfg.frame with
  | .data | .error => m.tail (cfg.store ≠ .mlsd) cfg.groupMax
  | _ => []

/-- Data and error frames have data bytes. -/
def CanCfg.hasData (cfg : CanCfg) : Bool := cfg.frame = .data ∨ cfg.frame = .error

theorem groupMax_ok {cfg : CanCfg} (h : cfg.Ok) (hs : cfg.store = .mlsd) : cfg.groupMax = cfg.writerMax := by
  unfold CanCfg.groupMax; rw [if_neg]; have := h.1 hs; omega

theorem recordSize_eq {cfg : CanCfg} (h : cfg.Ok) : cfg.recordSize = 8 + cfg.frameBytes := by
  have hw := h.2
  have hb : cfg.frameBytes ≤ 2 ^ 27 + 100 := by
    unfold CanCfg.frameBytes
    split <;> (repeat' split) <;> omega
  have h1 : 0 < cfg.frameBytes := by
    unfold CanCfg.frameBytes
    split <;> (repeat' split) <;> omega
  have e8 : 8 * cfg.frameBytes ≠ 0 := by omega
  simp only [CanCfg.recordSize, Layout.recordSize, Layout.nofInvalidBytes, prepareGroup, CanCfg.topLevel, List.foldl_cons, List.foldl_nil, Layout.step, Chan.prepare,
    prepareKind, prepareBits, canTime, canBits, Chan.dataBytes, e8, if_false]
  simp
  omega

theorem head_length (m : CanMsg) (frame : CanFrame) (mandatory : Bool) : (m.head frame mandatory).length =
    match frame, mandatory with
    | .data, true | .remote, true => 7
    | .data, false | .remote, false => 16
    | .error, _ => 18
    | .overload, _ => 2 := by
  cases frame <;> cases mandatory <;> simp [CanMsg.head, leBytes_length]

theorem padded_length (d : Bytes) (n : Nat) : (padded d n).length = n := by simp [padded]

theorem padded_take (d : Bytes) (n : Nat) (h : d.length ≤ n) : (padded d n).take d.length = d := by
  apply List.ext_getElem
  · simp [padded_length]; omega
  · intro i h1 h2
    simp [padded, List.getElem_take, h2]

theorem tail_length (cfg : CanCfg) (h : cfg.Ok) (m : CanMsg) :
    (m.head cfg.frame cfg.mandatory).length + (cfg.tail m).length = cfg.frameBytes := by
  rw [head_length]
  unfold CanCfg.tail CanCfg.frameBytes CanMsg.tail
  by_cases hs : cfg.store = .mlsd
  · have hg := groupMax_ok h hs
    simp only [hs, hg, ne_eq, not_true_eq_false, decide_false, if_true]
    cases cfg.frame <;> cases cfg.mandatory <;> simp [padded_length]
  · simp only [hs, ne_eq, not_false_eq_true, decide_true, if_true, if_false]
    cases cfg.frame <;> cases cfg.mandatory <;> simp

/-- The sample that is saved. -/
theorem save_spec (cfg : CanCfg) (h : cfg.Ok) (m : CanMsg) (s : CanSample) (hs : s.record.length = cfg.recordSize) :
    cfg.save m s = some {
      record := s.record.take 8 ++ (m.head cfg.frame cfg.mandatory ++ cfg.tail m),
      vlsdData := if cfg.hasData then cfg.store ≠ .mlsd else s.vlsdData,
      vlsdBuffer := if cfg.hasData then (if cfg.store ≠ .mlsd then m.data else []) else s.vlsdBuffer } := by
  have hsz := recordSize_eq h
  have hlen : 8 ≤ s.record.length := by omega
  have htail := tail_length cfg h m
  have hmax : (if cfg.groupMax < 8 then 8 else cfg.groupMax) = cfg.groupMax := by
    unfold CanCfg.groupMax; split <;> (try split) <;> omega
  unfold CanCfg.save CanMsg.toRaw
  simp only [hmax]
  have hhd := head_length m cfg.frame cfg.mandatory
  unfold CanCfg.hasData
  cases hf : cfg.frame with
  | data =>
    simp only
    rw [toRawData_spec _ _ _ _ _ hlen]
    simp [CanCfg.tail, hf]
  | remote =>
    simp only
    rw [toRawRemote_spec _ _ _ hlen]
    simp [CanCfg.tail, hf]
  | error =>
    simp only
    rw [toRawError_spec _ cfg.mandatory _ _ _ hlen]
    · simp [CanCfg.tail, hf]
    · rw [hs, hsz, ← htail, hhd, hf]
      simp only [CanCfg.tail, CanMsg.tail, hf]
      split <;> simp [padded_length] <;> omega
  | overload =>
    simp only
    rw [toRawOverload_spec _ cfg.mandatory _ hlen]
    simp [CanCfg.tail, hf]

theorem patch_zeros (a : Bytes) (index : Nat) : patchIndex (a ++ List.replicate 8 0) index = a ++ leBytes 8 index := by
  unfold patchIndex
  rw [if_pos (by rw [List.length_append, List.length_replicate]; omega), List.length_append, List.length_replicate,
    Nat.add_sub_cancel, List.take_left]

/-- The bytes in the file after the members of fixed size. -/
def CanCfg.fileTail (cfg : CanCfg) (m : CanMsg) (index : Nat) : Bytes :=
  if cfg.hasData = true ∧ cfg.store ≠ .mlsd then leBytes 8 index else cfg.tail m

theorem stored_spec (cfg : CanCfg) (h : cfg.Ok) (m : CanMsg) (s s' : CanSample) (hs : s.record.length = cfg.recordSize)
    (hv : s.vlsdData = false) (index : Nat) (he : cfg.save m s = some s') :
    s'.stored index = s.record.take 8 ++ (m.head cfg.frame cfg.mandatory ++ cfg.fileTail m index) := by
  rw [save_spec cfg h m s hs] at he
  cases he
  unfold CanSample.stored CanCfg.fileTail
  simp only
  have h0 : cfg.hasData = false → cfg.tail m = [] := by
    unfold CanCfg.hasData CanCfg.tail
    cases cfg.frame <;> simp
  by_cases hd : cfg.hasData = true
  · by_cases hm : cfg.store = .mlsd
    · simp [hd, hm]
    · have ht : cfg.tail m = List.replicate 8 0 := by
        unfold CanCfg.tail CanMsg.tail
        unfold CanCfg.hasData at hd
        cases hf : cfg.frame <;> simp_all
      simp only [hd, hm, if_true, ne_eq, not_false_eq_true, decide_true, and_self]
      rw [ht]
      rw [← List.append_assoc, ← List.append_assoc]
      exact patch_zeros _ index
  · simp only [Bool.not_eq_true] at hd
    simp [hd, hv]

/-! ### finding the channels -/

theorem find_map {α : Type} (p : α × Chan → Bool) (l : List (α × Chan)) :
    (l.find? p).map (·.2) = (l.findIdx? p).bind fun i => (l[i]?).map (·.2) := by
  induction l with
  | nil => rfl
  | cons x l ih =>
    rw [List.find?_cons, List.findIdx?_cons]
    cases p x with
    | true => rfl
    | false =>
      simp only [Bool.false_eq_true, if_false, Option.bind_map]
      rw [ih]; rfl

/-- The names as lists of characters, for the kernel. -/
def CanName.chars : CanName → List Char
  | .busChannel => ['B', 'u', 's', 'C', 'h', 'a', 'n', 'n', 'e', 'l']
  | .id => ['I', 'D']
  | .ide => ['I', 'D', 'E']
  | .dlc => ['D', 'L', 'C']
  | .dataLength => ['D', 'a', 't', 'a', 'L', 'e', 'n', 'g', 't', 'h']
  | .dataBytes => ['D', 'a', 't', 'a', 'B', 'y', 't', 'e', 's']
  | .dir => ['D', 'i', 'r']
  | .srr => ['S', 'R', 'R']
  | .edl => ['E', 'D', 'L']
  | .brs => ['B', 'R', 'S']
  | .esi => ['E', 'S', 'I']
  | .wakeUp => ['W', 'a', 'k', 'e', 'U', 'p']
  | .singleWire => ['S', 'i', 'n', 'g', 'l', 'e', 'W', 'i', 'r', 'e']
  | .r0 => ['R', '0']
  | .r1 => ['R', '1']
  | .errorType => ['E', 'r', 'r', 'o', 'r', 'T', 'y', 'p', 'e']
  | .frameDuration => ['F', 'r', 'a', 'm', 'e', 'D', 'u', 'r', 'a', 't', 'i', 'o', 'n']
  | .bitPosition => ['B', 'i', 't', 'P', 'o', 's', 'i', 't', 'i', 'o', 'n']
  | .crc => ['C', 'R', 'C']

def CanFrame.chars : CanFrame → List Char
  | .data => ['C', 'A', 'N', '_', 'D', 'a', 't', 'a', 'F', 'r', 'a', 'm', 'e']
  | .remote => ['C', 'A', 'N', '_', 'R', 'e', 'm', 'o', 't', 'e', 'F', 'r', 'a', 'm', 'e']
  | .error => ['C', 'A', 'N', '_', 'E', 'r', 'r', 'o', 'r', 'F', 'r', 'a', 'm', 'e']
  | .overload => ['C', 'A', 'N', '_', 'O', 'v', 'e', 'r', 'l', 'o', 'a', 'd', 'F', 'r', 'a', 'm', 'e']

theorem str_chars (n : CanName) : n.str.toList = n.chars := by cases n <;> decide +kernel

theorem base_chars (f : CanFrame) : f.base.toList = f.chars := by cases f <;> decide +kernel

theorem full_chars (f : CanFrame) (s : String) : (f.base ++ "." ++ s).toList = f.chars ++ '.' :: s.toList := by
  rw [String.toList_append, String.toList_append, base_chars]
  have : ".".toList = ['.'] := by decide +kernel
  rw [this]; simp

/-- The members without those of the settings. -/
def canMemberNames (frame : CanFrame) (mandatory : Bool) : List CanName :=
  (CanCfg.members ⟨frame, mandatory, .fixed, 8⟩).map (·.1)

theorem memberNames_eq (cfg : CanCfg) : cfg.members.map (·.1) = canMemberNames cfg.frame cfg.mandatory := by
  obtain ⟨frame, mandatory, store, writerMax⟩ := cfg
  cases frame <;> cases mandatory <;> rfl

/-- The names of all channels. -/
def canChars (frame : CanFrame) (mandatory : Bool) : List (List Char) :=
  ['t'] :: frame.chars :: (canMemberNames frame mandatory).map fun n => frame.chars ++ '.' :: n.chars

theorem names_eq (cfg : CanCfg) : cfg.channels.map (fun e => e.1.toList) = canChars cfg.frame cfg.mandatory := by
  unfold CanCfg.channels canChars
  rw [← memberNames_eq]
  have : "t".toList = ['t'] := by decide +kernel
  simp only [List.map_cons, List.map_map, this, base_chars]
  congr 2
  apply List.map_congr_left
  intro e _
  show (cfg.frame.base ++ "." ++ e.1.str).toList = _
  rw [full_chars, str_chars]
  rfl

def canAllNames : List CanName :=
  [.busChannel, .id, .ide, .dlc, .dataLength, .dataBytes, .dir, .srr, .edl, .brs, .esi, .wakeUp, .singleWire, .r0, .r1, .errorType, .frameDuration, .bitPosition, .crc]

theorem mem_allNames (n : CanName) : n ∈ canAllNames := by cases n <;> decide

theorem names_ok (f : CanFrame) (mn : Bool) : ∀ n ∈ canAllNames,
    (canChars f mn).findIdx? (containsName (f.chars ++ '.' :: n.chars))
      = ((canMemberNames f mn).findIdx? fun k => k == n).map (· + 2) := by
  cases f <;> cases mn <;> decide +kernel

theorem length_name_ok (f : CanFrame) (mn : Bool) :
    (canChars f mn).findIdx? (containsName ('.' :: CanName.dataLength.chars))
      = ((canMemberNames f mn).findIdx? fun k => k == .dataLength).map (· + 2) := by
  cases f <;> cases mn <;> decide +kernel

theorem ro_name_ok (f : CanFrame) (mn : Bool) :
    (canChars f mn).findIdx? (containsName (f.chars ++ ['.', 'R', 'O'])) = none := by
  cases f <;> cases mn <;> decide +kernel

theorem find_channel (cfg : CanCfg) (p : List Char → Bool) :
    (cfg.channels.find? fun c => p c.1.toList).map (·.2)
      = ((canChars cfg.frame cfg.mandatory).findIdx? p).bind fun i => (cfg.channels[i]?).map (·.2) := by
  rw [← names_eq, find_map (fun e : String × Chan => p e.1.toList), List.findIdx?_map]
  rfl

/-- What `GetChannel` finds is the member of that name. -/
theorem observed_eq (cfg : CanCfg) (n : CanName) :
    cfg.observed n.str = (cfg.members.find? fun e => e.1 == n).map (·.2) := by
  unfold CanCfg.observed CanCfg.getChannel
  rw [full_chars, str_chars, find_channel, names_ok _ _ n (mem_allNames n), find_map (fun e : CanName × Chan => e.1 == n),
    ← memberNames_eq, List.findIdx?_map]
  show _ = (cfg.members.findIdx? ((fun k => k == n) ∘ (·.1))).bind _
  cases cfg.members.findIdx? ((fun k => k == n) ∘ (·.1)) with
  | none => rfl
  | some i => simp [CanCfg.channels]; rfl

theorem observed_length (cfg : CanCfg) :
    cfg.getChannel ".DataLength" = (cfg.members.find? fun e => e.1 == .dataLength).map (·.2) := by
  unfold CanCfg.getChannel
  have : ".DataLength".toList = '.' :: CanName.dataLength.chars := by decide +kernel
  rw [this, find_channel, length_name_ok, find_map (fun e : CanName × Chan => e.1 == .dataLength), ← memberNames_eq,
    List.findIdx?_map]
  show _ = (cfg.members.findIdx? ((fun k => k == .dataLength) ∘ (·.1))).bind _
  cases cfg.members.findIdx? ((fun k => k == .dataLength) ∘ (·.1)) with
  | none => rfl
  | some i => simp [CanCfg.channels]; rfl

theorem observed_ro (cfg : CanCfg) : cfg.observed "RO" = none := by
  unfold CanCfg.observed CanCfg.getChannel
  have : "RO".toList = ['R', 'O'] := by decide +kernel
  rw [full_chars, this, find_channel, ro_name_ok]
  rfl

theorem take_has (cfg : CanCfg) (m : CanMsg) (R : Bytes) (hm : ∀ e ∈ cfg.members, MemberOk m R e) (sub : String)
    (n : CanName) (hs : n.str = sub) (hd : n ≠ .dataBytes) (v : Nat) (hv : m.meaning n = some v) (hh : cfg.has n = true)
    (set : CanMsg → Nat → CanMsg) (x : CanMsg) :
    cfg.take R sub set x = set x v := by
  subst hs
  unfold CanCfg.take
  unfold CanCfg.has at hh
  rw [observed_eq cfg n]
  cases hf : cfg.members.find? fun e => e.1 == n with
  | none =>
    rw [List.find?_eq_none] at hf
    have : (cfg.members.any fun e => e.1 == n) = false := by
      rw [List.any_eq_false]; exact hf
    rw [this] at hh; cases hh
  | some e =>
    have hmem := List.mem_of_find?_eq_some hf
    have he : e.1 = n := by simpa using List.find?_some hf
    obtain ⟨w, hw, hlt, hget⟩ := hm e hmem (by rw [he]; exact hd)
    rw [he, hv] at hw
    cases hw
    simp only [Option.map_some]
    unfold canValue
    rw [hget]
    simp [Nat.mod_eq_of_lt hlt]

theorem take_none (cfg : CanCfg) (R : Bytes) (sub : String) (n : CanName) (hs : n.str = sub) (hh : cfg.has n = false)
    (set : CanMsg → Nat → CanMsg) (x : CanMsg) : cfg.take R sub set x = x := by
  subst hs
  unfold CanCfg.take
  rw [observed_eq cfg n]
  have : cfg.members.find? (fun e => e.1 == n) = none := by
    rw [List.find?_eq_none]
    unfold CanCfg.has at hh
    rw [List.any_eq_false] at hh
    exact hh
  rw [this]; rfl

theorem take_ro (cfg : CanCfg) (R : Bytes) (set : CanMsg → Nat → CanMsg) (x : CanMsg) : cfg.take R "RO" set x = x := by
  unfold CanCfg.take
  rw [observed_ro]

/-! ### the identifier -/

theorem readId (x : CanMsg) (n : Nat) (hn : n < 2 ^ 32) :
    (((x.setMessageId (BitVec.ofNat 32 (n % 2 ^ 29))).setExtended (decide (n / 2 ^ 31 ≠ 0))).messageId)
      = BitVec.ofNat 32 (n % 2 ^ 29 + n / 2 ^ 31 * 2 ^ 31) := by
  have hE : (0x80000000#32) = BitVec.twoPow 32 31 := by decide
  have hx : n % 2 ^ 29 < 2 ^ 29 := Nat.mod_lt _ (by omega)
  generalize n % 2 ^ 29 = a at hx
  have hq : n / 2 ^ 31 = 0 ∨ n / 2 ^ 31 = 1 := by omega
  have hor : BitVec.ofNat 32 a ||| 0x80000000#32 = BitVec.ofNat 32 (a + 2 ^ 31) := by
    apply BitVec.eq_of_toNat_eq
    rw [BitVec.toNat_or, BitVec.toNat_ofNat, BitVec.toNat_ofNat, BitVec.toNat_ofNat, Nat.mod_eq_of_lt (by omega : a < 2 ^ 32),
      Nat.mod_eq_of_lt (by omega : a + 2 ^ 31 < 2 ^ 32)]
    have := Nat.two_pow_add_eq_or_of_lt (i := 31) (b := a) (by omega) 1
    rw [Nat.mul_one] at this
    rw [Nat.add_comm, this, Nat.or_comm]
  have hor2 : (BitVec.ofNat 32 a ||| 0x80000000#32) ||| 0x80000000#32 = BitVec.ofNat 32 a ||| 0x80000000#32 := by
    rw [BitVec.or_assoc, BitVec.or_self]
  have hand : BitVec.ofNat 32 a &&& ~~~0x80000000#32 = BitVec.ofNat 32 a := by
    apply BitVec.eq_of_getLsbD_eq
    intro i hi
    rw [hE]
    simp only [BitVec.getLsbD_and, BitVec.getLsbD_not, BitVec.getLsbD_twoPow, BitVec.getLsbD_ofNat, hi, decide_true,
      Bool.true_and]
    by_cases h31 : i = 31
    · subst h31
      rw [Nat.testBit_lt_two_pow (by omega)]; rfl
    · have : ¬ (31 = i) := fun h => h31 h.symm
      simp [this]
  have hand2 : (BitVec.ofNat 32 a ||| 0x80000000#32) &&& ~~~0x80000000#32 = BitVec.ofNat 32 a := by
    have : (BitVec.ofNat 32 a ||| 0x80000000#32) &&& ~~~0x80000000#32 = BitVec.ofNat 32 a &&& ~~~0x80000000#32 := by
      apply BitVec.eq_of_getLsbD_eq
      intro i hi
      simp only [BitVec.getLsbD_and, BitVec.getLsbD_or, BitVec.getLsbD_not, hi, decide_true, Bool.true_and]
      cases (0x80000000#32).getLsbD i <;> simp
    rw [this, hand]
  simp only [CanMsg.setMessageId, CanMsg.setExtended]
  rcases hq with hq | hq
  · rw [hq]
    simp only [ne_eq, not_true_eq_false, decide_false, Bool.false_eq_true, if_false]
    split
    · rw [hand2, Nat.zero_mul, Nat.add_zero]
    · rw [hand, Nat.zero_mul, Nat.add_zero]
  · rw [hq]
    simp only [ne_eq, Nat.one_ne_zero, not_false_eq_true, decide_true, if_true]
    split
    · rw [hor2, hor, Nat.one_mul]
    · rw [hor, Nat.one_mul]

end Mdf
