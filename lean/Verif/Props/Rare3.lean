import Verif.Model.Rare3
import Verif.Props.Sr3
import Verif.Props.Text

/-!
# Property C126: program text, triggers, dependencies and extensions of an MDF 3 file are read as stored

A block that is laid out as the format tells is read without an exception, and what is read is what is stored.
-/

namespace Mdf

/-! ## What a file stores -/

/-- A block without links: type, size, values. -/
def plain3 (ty : Bytes) (size : Nat) (body : Bytes) : Bytes := writeStr ty 2 ++ leBytes 2 size ++ body

/-- The values of a trigger block. -/
def trigBody (es : List Tr3Event) : Bytes := leBytes 2 es.length ++ es.flatMap Tr3Event.write

/-- The links of a dependency block. -/
def depBytes (ds : List Dep3) : Bytes := ds.flatMap fun d => leBytes 4 d.dg.toNat ++ (leBytes 4 d.cg.toNat ++ leBytes 4 d.cn.toNat)

/-- The text of a field: what is in front of the first zero, without the blanks at its ends. -/
def FieldText (field text : Bytes) : Prop := Trimmed (field.takeWhile (· ≠ 0#8)) text

/-! ## Reading -/

theorem readStr_whole (t rest : Bytes) : readStr t.length (t ++ rest) = (trim (t.takeWhile (· ≠ 0#8)), rest) := by
  have h := readStrLoop_write t rest [] t.length
  have e : writeStr t t.length = t := by rw [writeStr_eq]; simp
  rw [e, List.take_length] at h
  unfold readStr
  rw [h]
  rfl

theorem plain3_at {ty : Bytes} (hty : TypeOk3 ty) {size : Nat} (hs : size < 2 ^ 16) {body file : Bytes} {p : Nat}
    (h : HasAt file p (plain3 ty size body)) : ∃ rest, readHeader3 0 file p = some ((size, []), body ++ rest) := by
  have := readHeader3_at hty hs [] body file p (by simpa [plain3, links4] using h)
  simpa using this

theorem num_le {n x : Nat} (t : Bytes) : getNum n (leBytes n x ++ t) = some (BitVec.ofNat (8 * n) x, t) := by
  unfold getNum
  rw [readNumber_append (leBytes_length n _), leNat_leBytes]
  simp only [Option.map_some, Option.some.injEq, Prod.mk.injEq, and_true]
  apply BitVec.eq_of_toNat_eq
  simp [Nat.pow_mul]

theorem get_then {α β : Type} {f : Get α} {g : α → Get β} {s t : Bytes} {a : α} (h : f s = some (a, t)) : (f >>= g) s = g a t := by
  show (f s >>= fun p => g p.1 p.2) = _
  rw [h]
  rfl

theorem trEvent_read (e : Tr3Event) (t : Bytes) : Tr3Event.read (e.write ++ t) = some (e, t) := by
  simp only [Tr3Event.read, Tr3Event.write, List.append_assoc, num8_bind]
  rfl

theorem trEvents_read (size n bytes : Nat) (es : List Tr3Event) (t : Bytes) (hn : n = es.length) (hs : bytes + 24 * n ≤ size) :
    readTrEvents size n bytes (es.flatMap Tr3Event.write ++ t) = some (es, t) := by
  subst hn
  induction es generalizing bytes with
  | nil => rfl
  | cons e es ih =>
    simp only [List.length_cons] at hs ⊢
    rw [readTrEvents, if_neg (by omega)]
    simp only [List.flatMap_cons, List.append_assoc]
    rw [get_then (trEvent_read e _), get_then (ih (bytes + 24) (by omega))]
    rfl

theorem depBytes_length (ds : List Dep3) : (depBytes ds).length = 12 * ds.length := by
  induction ds with
  | nil => rfl
  | cons d ds ih =>
    have e : depBytes (d :: ds) = (leBytes 4 d.dg.toNat ++ (leBytes 4 d.cg.toNat ++ leBytes 4 d.cn.toNat)) ++ depBytes ds := rfl
    rw [e]
    simp only [List.length_append, leBytes_length, List.length_cons, ih]
    omega

theorem deps_read (ds : List Dep3) (t : Bytes) : readDeps3 ds.length (depBytes ds ++ t) = some (ds, t) := by
  induction ds with
  | nil => rfl
  | cons d ds ih =>
    have e : depBytes (d :: ds) ++ t = putNum (n := 4) d.dg ++ (putNum (n := 4) d.cg ++ (putNum (n := 4) d.cn ++ (depBytes ds ++ t))) := by
      simp [depBytes, putNum]
    rw [e, List.length_cons, readDeps3]
    simp only [num4_bind]
    rw [get_then ih]
    rfl

/-! ## Program text -/

/-- **C126** (program text).  The item of the program block shows the stored text, cut after 20 characters. -/
theorem C126_program (file field : Bytes) (link : Nat) (hl : 0 < link) (hf : 4 + field.length < 2 ^ 16)
    (h : HasAt file link (plain3 [0x50, 0x52] (4 + field.length) field)) :
    ∃ text, FieldText field text ∧ readPr3 file link = some text ∧
      programItem file link = some (if text.length ≤ 20 then text else text.take 20 ++ [0x2E, 0x2E]) := by
  obtain ⟨rest, hr⟩ := plain3_at (typeOk3_of (by decide)) hf h
  have e : readPr3 file link = some (trim (field.takeWhile (· ≠ 0#8))) := by
    rw [readPr3, hr]
    simp only [Option.map_some]
    rw [show (2 ^ 64 + (4 + field.length) - 4) % 2 ^ 64 = field.length by omega, readStr_whole]
  refine ⟨_, trim_trimmed _, e, ?_⟩
  rw [programItem, if_pos hl, e, Option.map_some]
  congr 1
  by_cases h20 : (trim (field.takeWhile (· ≠ 0#8))).length ≤ 20
  · rw [if_neg (by omega), if_pos h20]
  · rw [if_pos (by omega), if_neg h20]

example : programItem ([0] ++ plain3 [0x50, 0x52] 8 [0x20, 0x61, 0x62, 0]) 1 = some [0x61, 0x62] := by decide

theorem HasAt.whole (bs : Bytes) : HasAt bs 0 bs := fun i _ => by rw [Nat.zero_add]

/-- **C126** (no program).  Without a link the item tells so and the file is not read. -/
theorem C126_no_program (file : Bytes) : programItem file 0 = some kNoProgram := rfl

/-- **C126** (program written).  A program text of at most 65531 bytes is read as it was written. -/
theorem C126_program_kept (file text : Bytes) (link : Nat) (hf : text.length ≤ 65531) (h : HasAt file link (pr3Bytes text)) :
    ∃ t, readPr3 file link = some t ∧ FieldText text t := by
  have hw : writeStr text text.length = text := by rw [writeStr_eq]; simp
  have h' : HasAt file link (plain3 [0x50, 0x52] (4 + text.length) text) := by
    unfold pr3Bytes at h
    rwa [hw, Nat.mod_eq_of_lt (by omega)] at h
  obtain ⟨rest, hr⟩ := plain3_at (typeOk3_of (by decide)) (by omega) h'
  refine ⟨_, ?_, trim_trimmed _⟩
  rw [readPr3, hr]
  simp only [Option.map_some]
  rw [show (2 ^ 64 + (4 + text.length) - 4) % 2 ^ 64 = text.length by omega, readStr_whole]

example : ∃ t, readPr3 (pr3Bytes (List.replicate 65531 0x61)) 0 = some t ∧ FieldText (List.replicate 65531 0x61) t :=
  C126_program_kept _ _ 0 (by rw [List.length_replicate]; omega) (HasAt.whole _)

/-- A program block that tells less than four bytes is read up to the next zero, wherever it is. -/
theorem C126_damaged_program (file body : Bytes) (link size : Nat) (hs : size < 4) (h0 : ∀ c ∈ body, c ≠ 0#8) (hb : body.length < 2 ^ 63)
    (h : HasAt file link (plain3 [0x50, 0x52] size (body ++ [0]))) : readPr3 file link = some (trim body) := by
  obtain ⟨rest, hr⟩ := plain3_at (typeOk3_of (by decide)) (by omega) h
  rw [readPr3, hr]
  simp only [Option.map_some, readStr, List.append_assoc, List.singleton_append]
  have e := readStrLoop_zero body rest [] ((2 ^ 64 + size - 4) % 2 ^ 64)
  simp only [List.nil_append] at e
  rw [show ((0 : Byte)) = 0#8 from rfl, e, List.take_of_length_le (by omega)]
  have := List.takeWhile_append_of_pos (p := fun c : Byte => decide (c ≠ 0#8)) (l₁ := body) (l₂ := []) (by simpa using h0)
  simp only [List.append_nil, List.takeWhile_nil] at this
  rw [this]

example : readPr3 (plain3 [0x50, 0x52] 2 ([0x61, 0x62, 0x20] ++ [0])) 0 = some (trim [0x61, 0x62, 0x20]) :=
  C126_damaged_program _ _ 0 2 (by decide) (by decide) (by decide) (HasAt.whole _)

/-! ## Triggers -/

/-- **C126** (triggers).  A trigger block with as many events as fit, that is up to 2730, gives these events in order and its comment. -/
theorem C126_triggers (file : Bytes) (pos tx : Nat) (es : List Tr3Event) (field : Bytes) (hn : es.length ≤ 2730) (htx : tx < 2 ^ 32)
    (h : HasAt file pos (writeStr [0x54, 0x52] 2 ++ leBytes 2 (10 + 24 * es.length) ++ links4 [tx] ++ trigBody es))
    (hc : 0 < tx → 4 + field.length < 2 ^ 16 ∧ HasAt file tx (plain3 [0x54, 0x58] (4 + field.length) field)) :
    ∃ c, readTr3 file pos = some ⟨es, c⟩ ∧ (tx = 0 → c = []) ∧ (0 < tx → FieldText field c) := by
  have hcom : ∃ c, readTx3 file tx = some c ∧ (tx = 0 → c = []) ∧ (0 < tx → FieldText field c) := by
    by_cases h0 : 0 < tx
    · obtain ⟨hf, ha⟩ := hc h0
      obtain ⟨rest, hr⟩ := plain3_at (typeOk3_of (by decide)) hf ha
      refine ⟨trim (field.takeWhile (· ≠ 0#8)), ?_, by omega, fun _ => trim_trimmed _⟩
      rw [readTx3, if_pos h0, hr, Option.bind_some]
      simp only [getTx3]
      rw [show (2 ^ 64 + (4 + field.length) - 4) % 2 ^ 64 = field.length by omega]
      rw [get_then (f := getStr field.length) (congrArg some (readStr_whole field rest))]
      show some (trim (trim _)) = _
      rw [trim_id (trim_head _) (trim_last _)]
    · refine ⟨[], by rw [readTx3, if_neg h0], fun _ => rfl, fun h => absurd h h0⟩
  obtain ⟨c, h1, h2, h3⟩ := hcom
  refine ⟨c, ?_, h2, h3⟩
  obtain ⟨rest, hr⟩ := readHeader3_at (typeOk3_of (by decide)) (by omega) [tx] (trigBody es) file pos h
  have e : [tx].map (· % 2 ^ 32) = [tx] := by simp; omega
  rw [e] at hr
  rw [readTr3, show (1 : Nat) = [tx].length from rfl, hr, Option.bind_some, trigBody, List.append_assoc]
  simp only
  rw [num_le, Option.bind_some]
  simp only [BitVec.toNat_ofNat]
  rw [trEvents_read _ _ _ es rest (by rw [Nat.mod_eq_of_lt (by omega)]) (by rw [Nat.mod_eq_of_lt (by omega)]; exact Nat.le_refl _), Option.bind_some]
  simp [h1]

example : readTr3 ([0] ++ (writeStr [0x54, 0x52] 2 ++ leBytes 2 34 ++ links4 [0] ++ trigBody [⟨1, 2, 3⟩])) 1 = some ⟨[⟨1, 2, 3⟩], []⟩ := by decide

/-- How many of `n` events are read of a block that tells the size `size`, of which `bytes` were read. -/
def trCount (size n bytes : Nat) : Nat := if size < bytes + 8 then 0 else min n ((size - bytes - 8) / 24 + 1)

theorem trEvents_count (size n bytes : Nat) (es : List Tr3Event) (t : Bytes) (hn : n ≤ es.length) :
    ∃ r, readTrEvents size n bytes (es.flatMap Tr3Event.write ++ t) = some (es.take (trCount size n bytes), r) := by
  induction n generalizing es bytes with
  | zero =>
    refine ⟨es.flatMap Tr3Event.write ++ t, ?_⟩
    rw [show trCount size 0 bytes = 0 by unfold trCount; split <;> simp, List.take_zero]
    rfl
  | succ n ih =>
    cases es with
    | nil => simp at hn
    | cons e es =>
      by_cases hs : size < bytes + 8
      · refine ⟨(e :: es).flatMap Tr3Event.write ++ t, ?_⟩
        rw [readTrEvents, if_pos hs, trCount, if_pos hs]
        rfl
      · obtain ⟨r, hr⟩ := ih (bytes + 24) es (by simpa using hn)
        refine ⟨r, ?_⟩
        rw [readTrEvents, if_neg hs]
        simp only [List.flatMap_cons, List.append_assoc]
        rw [get_then (trEvent_read e _), get_then hr]
        have e2 : trCount size (n + 1) bytes = trCount size n (bytes + 24) + 1 := by
          unfold trCount
          rw [if_neg hs]
          split <;> omega
        rw [e2, List.take_succ_cons]
        rfl

/-- **C126** (triggers written).  The events of a block as the library writes it are read again if there are at most 2730 of them; of more
(and less than 65536) as many are read as the 16 bits of the size tell. -/
theorem C126_triggers_written (file : Bytes) (pos : Nat) (es : List Tr3Event) (hn : es.length < 2 ^ 16) (h : HasAt file pos (tr3Bytes 0 es)) :
    readTr3 file pos = some ⟨es.take (trCount ((10 + 24 * es.length) % 2 ^ 16) es.length 10), []⟩ := by
  obtain ⟨rest, hr⟩ := readHeader3_at (typeOk3_of (by decide)) (by omega) [0] _ file pos h
  rw [readTr3, show (1 : Nat) = [0].length from rfl, hr, Option.bind_some, List.append_assoc]
  simp only
  rw [getNum_put, Option.bind_some]
  simp only [BitVec.toNat_ofNat, Nat.mod_eq_of_lt hn]
  obtain ⟨r, hr2⟩ := trEvents_count ((10 + 24 * es.length) % 2 ^ 16) es.length 10 es rest (Nat.le_refl _)
  rw [hr2, Option.bind_some]
  rfl

/-- **C126** (triggers kept).  All of up to 2730 events. -/
theorem C126_triggers_kept (file : Bytes) (pos : Nat) (es : List Tr3Event) (hn : es.length ≤ 2730) (h : HasAt file pos (tr3Bytes 0 es)) :
    readTr3 file pos = some ⟨es, []⟩ := by
  rw [C126_triggers_written file pos es (by omega) h, List.take_of_length_le]
  rw [Nat.mod_eq_of_lt (by omega)]
  unfold trCount
  split <;> omega

/-- **C126** (triggers lost).  From 2731 events on (and less than 65536) at most 2730 are read. -/
theorem C126_triggers_lost (file : Bytes) (pos : Nat) (es : List Tr3Event) (h1 : 2731 ≤ es.length) (hn : es.length < 2 ^ 16)
    (h : HasAt file pos (tr3Bytes 0 es)) : ∃ es', readTr3 file pos = some ⟨es', []⟩ ∧ es'.length ≤ 2730 ∧ es' <+: es := by
  refine ⟨_, C126_triggers_written file pos es hn h, ?_, List.take_prefix _ _⟩
  rw [List.length_take]
  unfold trCount
  split <;> omega

example : ∃ es', readTr3 (tr3Bytes 0 (List.replicate 2731 ⟨1, 2, 3⟩)) 0 = some ⟨es', []⟩ ∧ es'.length ≤ 2730 ∧
    es' <+: List.replicate 2731 (⟨1, 2, 3⟩ : Tr3Event) := C126_triggers_lost _ 0 _ (by rw [List.length_replicate]; omega) (by rw [List.length_replicate]; omega) (HasAt.whole _)

/-- **C126** (damaged triggers).  A trigger block that tells between 18 and 33 bytes and an event, at the end of a file: the event is read
from behind the block, which is an exception, so the file is not read. -/
theorem C126_damaged_trigger (size tx n : Nat) (body : Bytes) (h1 : 18 ≤ size) (h2 : size < 34) (hb : body.length + 10 = size)
    (hn : 0 < n) (hn' : n < 2 ^ 16) (front : Bytes) :
    readTr3 (front ++ (writeStr [0x54, 0x52] 2 ++ leBytes 2 size ++ links4 [tx] ++ (leBytes 2 n ++ body))) front.length = none := by
  have hdrop : (front ++ (writeStr [0x54, 0x52] 2 ++ leBytes 2 size ++ links4 [tx] ++ (leBytes 2 n ++ body))).drop front.length =
      writeStr [0x54, 0x52] 2 ++ leBytes 2 size ++ links4 [tx] ++ (leBytes 2 n ++ body) := List.drop_left
  have e1 : leNat (leBytes 2 size) = size := by rw [leNat_leBytes, Nat.mod_eq_of_lt (by omega)]
  have hh : readHeader3 1 (front ++ (writeStr [0x54, 0x52] 2 ++ leBytes 2 size ++ links4 [tx] ++ (leBytes 2 n ++ body))) front.length =
      some ((size, [tx].map (· % 2 ^ 32)), leBytes 2 n ++ body) := by
    unfold readHeader3
    rw [hdrop]
    simp only [List.append_assoc]
    rw [readStr_type3 (typeOk3_of (by decide))]
    simp only
    rw [if_neg (by decide), readNumber_append (leBytes_length 2 size)]
    simp only [Option.bind_some, e1]
    rw [show (1 : Nat) = [tx].length from rfl, readLinks3_mod]
    rfl
  rw [readTr3, hh, Option.bind_some]
  simp only
  rw [num_le, Option.bind_some]
  simp only [BitVec.toNat_ofNat]
  rw [Nat.mod_eq_of_lt (by omega)]
  obtain ⟨m, rfl⟩ : ∃ m, n = m + 1 := ⟨n - 1, by omega⟩
  rw [readTrEvents, if_neg (by omega)]
  have hnone : Tr3Event.read body = none := by
    have hstep : ∀ (s : Bytes), 8 ≤ s.length → getNum 8 s = some (BitVec.ofNat (8 * 8) (leNat (s.take 8)), s.drop 8) := by
      intro s hs
      unfold getNum readNumber
      rw [if_neg (by omega)]
      rfl
    have hfail : ∀ (s : Bytes), s.length < 8 → getNum 8 s = none := by
      intro s hs
      unfold getNum readNumber
      rw [if_pos hs]
      rfl
    unfold Tr3Event.read
    rw [get_then (hstep body (by omega))]
    by_cases h16 : 16 ≤ body.length
    · rw [get_then (hstep (body.drop 8) (by simp; omega))]
      show (getNum 8 _ >>= _) = none
      rw [hfail _ (by simp; omega)]
      rfl
    · show (getNum 8 _ >>= _) = none
      rw [hfail _ (by simp; omega)]
      rfl
  have : (Tr3Event.read >>= fun e => readTrEvents size m (10 + 24) >>= fun es => pure (e :: es)) body = none := by
    show (Tr3Event.read body >>= _) = none
    rw [hnone]
    rfl
  rw [this]
  rfl

example : readTr3 ([9] ++ (writeStr [0x54, 0x52] 2 ++ leBytes 2 18 ++ links4 [0] ++ (leBytes 2 1 ++ List.replicate 8 5))) 1 = none :=
  C126_damaged_trigger 18 0 1 _ (by decide) (by decide) (by decide) (by decide) (by decide) [9]

/-! ## Dependencies -/

/-- **C126** (dependencies).  Linear and matrix dependencies are read as stored. -/
theorem C126_dependencies (file : Bytes) (pos size type : Nat) (ds : List Dep3) (ht : type = 1 ∨ type = 2) (hs : size < 2 ^ 16)
    (hn : ds.length < 2 ^ 16) (h : HasAt file pos (plain3 [0x43, 0x44] size (leBytes 2 type ++ (leBytes 2 ds.length ++ depBytes ds)))) :
    readCd3 file pos = some (ds, []) := by
  obtain ⟨rest, hr⟩ := plain3_at (typeOk3_of (by decide)) hs h
  rw [readCd3, hr, Option.bind_some]
  simp only [List.append_assoc]
  rw [num_le, Option.bind_some, num_le, Option.bind_some]
  simp only [BitVec.toNat_ofNat]
  rw [Nat.mod_eq_of_lt (by omega), deps_read]
  rcases ht with rfl | rfl <;> simp

example : readCd3 (plain3 [0x43, 0x44] 20 (leBytes 2 1 ++ (leBytes 2 1 ++ depBytes [⟨1, 2, 3⟩])) ++ [7]) 0 = some ([⟨1, 2, 3⟩], []) := by decide

/-- **C126** (dimensions).  A block with several dimensions (type 256 + N) and at most 256 dependencies is read without an exception, but
neither its dependencies nor its dimensions are read. -/
theorem C126_dimensions_skipped (file : Bytes) (pos size type : Nat) (n : Nat) (body : Bytes) (ht : 2 < type) (ht' : type < 2 ^ 16)
    (hs : size < 2 ^ 16) (hn : n ≤ 256) (h : HasAt file pos (plain3 [0x43, 0x44] size (leBytes 2 type ++ (leBytes 2 n ++ body)))) :
    readCd3 file pos = some ([], []) := by
  obtain ⟨rest, hr⟩ := plain3_at (typeOk3_of (by decide)) hs h
  have hx : ∀ k : Nat, k ≤ 2 → BitVec.ofNat 16 type ≠ BitVec.ofNat 16 k := by
    intro k hk e
    have := congrArg BitVec.toNat e
    simp only [BitVec.toNat_ofNat] at this
    omega
  rw [readCd3, hr, Option.bind_some]
  simp only [List.append_assoc]
  rw [num_le, Option.bind_some, num_le, Option.bind_some]
  simp only [Nat.reduceMul]
  rw [if_neg (hx 0 (by omega)), if_neg (by simp only [not_or]; exact ⟨hx 1 (by omega), hx 2 (by omega)⟩)]
  simp only [BitVec.toNat_ofNat]
  rw [Nat.mod_eq_of_lt (by omega), show n - 256 = 0 by omega]
  rfl

example : readCd3 (plain3 [0x43, 0x44] 22 (leBytes 2 257 ++ (leBytes 2 1 ++ (depBytes [⟨1, 2, 3⟩] ++ leBytes 2 1)))) 0 = some ([], []) :=
  C126_dimensions_skipped _ 0 22 257 1 _ (by decide) (by decide) (by decide) (by decide) (HasAt.whole _)

/-- **C126** (never fails).  A dependency block with all its dependencies, of any type, is read without an exception. -/
theorem C126_dependencies_read (file : Bytes) (pos size type : Nat) (ds : List Dep3) (more : Bytes) (hs : size < 2 ^ 16)
    (hn : ds.length < 2 ^ 16) (h : HasAt file pos (plain3 [0x43, 0x44] size (leBytes 2 type ++ (leBytes 2 ds.length ++ (depBytes ds ++ more))))) :
    (readCd3 file pos).isSome = true := by
  obtain ⟨rest, hr⟩ := plain3_at (typeOk3_of (by decide)) hs h
  rw [readCd3, hr, Option.bind_some]
  simp only [List.append_assoc]
  rw [num_le, Option.bind_some, num_le, Option.bind_some]
  simp only [BitVec.toNat_ofNat]
  rw [Nat.mod_eq_of_lt (show ds.length < 2 ^ (8 * 2) by omega), deps_read]
  split
  · rfl
  split
  · rfl
  rw [Option.isSome_map]
  have hlen : ∀ (k : Nat) (s : Bytes), 2 * k ≤ s.length → (getNums 2 k s).isSome = true := by
    intro k
    induction k with
    | zero => intro s _; rfl
    | succ k ih =>
      intro s hk
      have e : getNum 2 s = some (BitVec.ofNat (8 * 2) (leNat (s.take 2)), s.drop 2) := by
        unfold getNum readNumber
        rw [if_neg (by omega)]
        rfl
      rw [getNums, get_then e]
      obtain ⟨r, hr⟩ := Option.isSome_iff_exists.1 (ih (s.drop 2) (by simp; omega))
      rw [get_then (t := r.2) (a := r.1) hr]
      rfl
  apply hlen
  have := depBytes_length ds
  simp only [List.length_append]
  omega

example : (readCd3 (plain3 [0x43, 0x44] 9 (leBytes 2 257 ++ (leBytes 2 (List.replicate 300 (⟨1, 2, 3⟩ : Dep3)).length ++
    (depBytes (List.replicate 300 ⟨1, 2, 3⟩) ++ [])))) 0).isSome = true :=
  C126_dependencies_read _ 0 9 257 _ [] (by decide) (by rw [List.length_replicate]; omega) (HasAt.whole _)

/-! ## Extensions -/

/-- **C126** (module).  Number, address, description and name of a control unit are read as stored. -/
theorem C126_module (file : Bytes) (pos size : Nat) (m : BitVec 16) (a : BitVec 32) (d e : Bytes) (hs : size < 2 ^ 16)
    (hd : d.length = 80) (he : e.length = 32)
    (h : HasAt file pos (plain3 [0x43, 0x45] size (leBytes 2 2 ++ (leBytes 2 m.toNat ++ (leBytes 4 a.toNat ++ (d ++ e)))))) :
    ∃ d' e', readCe3 file pos = some (.dim m a d' e') ∧ FieldText d d' ∧ FieldText e e' := by
  obtain ⟨rest, hr⟩ := plain3_at (typeOk3_of (by decide)) hs h
  refine ⟨_, _, ?_, trim_trimmed _, trim_trimmed _⟩
  have hd' := readStr_whole d (e ++ rest)
  have he' := readStr_whole e rest
  rw [hd] at hd'
  rw [he] at he'
  rw [readCe3, hr, Option.bind_some]
  simp only [List.append_assoc]
  rw [num_le, Option.bind_some]
  simp only [Nat.reduceMul, if_true]
  rw [num_le, Option.bind_some]
  simp only
  rw [num_le, Option.map_some]
  simp only [hd', he', Nat.reduceMul, BitVec.ofNat_toNat, BitVec.setWidth_eq]

/-- **C126** (message).  Identifier, index, name and sender of a CAN message are read as stored. -/
theorem C126_message (file : Bytes) (pos size : Nat) (m a : BitVec 32) (d e : Bytes) (hs : size < 2 ^ 16)
    (hd : d.length = 36) (he : e.length = 36)
    (h : HasAt file pos (plain3 [0x43, 0x45] size (leBytes 2 19 ++ (leBytes 4 m.toNat ++ (leBytes 4 a.toNat ++ (d ++ e)))))) :
    ∃ d' e', readCe3 file pos = some (.can m a d' e') ∧ FieldText d d' ∧ FieldText e e' := by
  obtain ⟨rest, hr⟩ := plain3_at (typeOk3_of (by decide)) hs h
  refine ⟨_, _, ?_, trim_trimmed _, trim_trimmed _⟩
  have hd' := readStr_whole d (e ++ rest)
  have he' := readStr_whole e rest
  rw [hd] at hd'
  rw [he] at he'
  rw [readCe3, hr, Option.bind_some]
  simp only [List.append_assoc]
  rw [num_le, Option.bind_some]
  simp only [Nat.reduceMul]
  rw [if_neg (by decide), if_pos (by decide), num_le, Option.bind_some]
  simp only
  rw [num_le, Option.map_some]
  simp only [hd', he', Nat.reduceMul, BitVec.ofNat_toNat, BitVec.setWidth_eq]

/-- **C126** (other extensions).  A block of any other type is read without an exception and nothing is kept. -/
theorem C126_other_extension (file : Bytes) (pos size type : Nat) (body : Bytes) (hs : size < 2 ^ 16) (ht : type < 2 ^ 16) (h2 : type ≠ 2)
    (h19 : type ≠ 19) (h : HasAt file pos (plain3 [0x43, 0x45] size (leBytes 2 type ++ body))) : readCe3 file pos = some .other := by
  obtain ⟨rest, hr⟩ := plain3_at (typeOk3_of (by decide)) hs h
  have hx : ∀ k : Nat, k < 2 ^ 16 → type ≠ k → BitVec.ofNat 16 type ≠ BitVec.ofNat 16 k := by
    intro k hk hne e
    have := congrArg BitVec.toNat e
    simp only [BitVec.toNat_ofNat] at this
    omega
  rw [readCe3, hr, Option.bind_some]
  simp only [List.append_assoc]
  rw [num_le, Option.bind_some]
  simp only [Nat.reduceMul]
  rw [if_neg (hx 2 (by omega) h2), if_neg (hx 19 (by omega) h19)]

example : ∃ d' e', readCe3 (plain3 [0x43, 0x45] 124 (leBytes 2 2 ++ (leBytes 2 (3#16).toNat ++ (leBytes 4 (9#32).toNat ++
    (writeStr [0x61] 80 ++ writeStr [0x62] 32))))) 0 = some (.dim 3 9 d' e') ∧ FieldText (writeStr [0x61] 80) d' ∧
    FieldText (writeStr [0x62] 32) e' :=
  C126_module _ 0 124 3 9 _ _ (by decide) (writeStr_length _ _) (writeStr_length _ _) (HasAt.whole _)

example : readCe3 (plain3 [0x43, 0x45] 86 (leBytes 2 19 ++ (leBytes 4 3 ++ (leBytes 4 9 ++ (writeStr [0x61] 36 ++ writeStr [0x62] 36))))) 0 =
    some (.can 3 9 [0x61] [0x62]) := by decide

example : readCe3 (plain3 [0x43, 0x45] 6 (leBytes 2 7 ++ [])) 0 = some .other :=
  C126_other_extension _ 0 6 7 [] (by decide) (by decide) (by decide) (by decide) (HasAt.whole _)

end Mdf
