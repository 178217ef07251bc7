import Verif.Model.Utf
/-!
# C63, C64: strings crossing the native boundary
-/
namespace Verif.Props
open Verif

/-! ## Specification: Unicode -/

/-- A Unicode scalar value. -/
def IsScalar (c : Nat) : Prop := c < 0xD800 ∨ (0xDFFF < c ∧ c ≤ 0x10FFFF)

/-- The bytes of one scalar value in UTF-8: the bits of the value spread over one to four bytes. -/
inductive Utf8Of : Nat → List Nat → Prop
  | one (x : Nat) : x < 2 ^ 7 → Utf8Of x [x]
  | two (x y : Nat) : x < 2 ^ 5 → y < 2 ^ 6 → 2 ^ 7 ≤ x * 2 ^ 6 + y → Utf8Of (x * 2 ^ 6 + y) [0b11000000 + x, 0b10000000 + y]
  | three (x y z : Nat) : x < 2 ^ 4 → y < 2 ^ 6 → z < 2 ^ 6 → 2 ^ 11 ≤ x * 2 ^ 12 + y * 2 ^ 6 + z →
      Utf8Of (x * 2 ^ 12 + y * 2 ^ 6 + z) [0b11100000 + x, 0b10000000 + y, 0b10000000 + z]
  | four (w x y z : Nat) : w < 2 ^ 3 → x < 2 ^ 6 → y < 2 ^ 6 → z < 2 ^ 6 →
      2 ^ 16 ≤ w * 2 ^ 18 + x * 2 ^ 12 + y * 2 ^ 6 + z →
      Utf8Of (w * 2 ^ 18 + x * 2 ^ 12 + y * 2 ^ 6 + z)
        [0b11110000 + w, 0b10000000 + x, 0b10000000 + y, 0b10000000 + z]

/-- `bytes` is the text `cs` in UTF-8. -/
inductive IsUtf8 : List Nat → List Nat → Prop
  | nil : IsUtf8 [] []
  | cons (c : Nat) (b rest : List Nat) (cs : List Nat) : IsScalar c → Utf8Of c b → IsUtf8 rest cs → IsUtf8 (b ++ rest) (c :: cs)

/-- The units of one scalar value in UTF-16. -/
inductive Utf16Of : Nat → List Nat → Prop
  | one (x : Nat) : x < 2 ^ 16 → Utf16Of x [x]
  | two (h l : Nat) : h < 2 ^ 10 → l < 2 ^ 10 → Utf16Of (2 ^ 16 + h * 2 ^ 10 + l) [0xD800 + h, 0xDC00 + l]

/-- `units` is the text `cs` in UTF-16. -/
inductive IsUtf16 : List Nat → List Nat → Prop
  | nil : IsUtf16 [] []
  | cons (c : Nat) (b rest : List Nat) (cs : List Nat) : IsScalar c → Utf16Of c b → IsUtf16 rest cs → IsUtf16 (b ++ rest) (c :: cs)

/-! ## Proofs -/

theorem splitUtf16_nil : splitUtf16 [] = [] := by rw [splitUtf16.eq_def]

theorem splitUtf16_cons (u : Nat) (r : List Nat) : splitUtf16 (u :: r) =
    if isHigh u = true then
      match r with
      | [] => [none]
      | v :: r' =>
        if isLow v = true then some (pairValue u v) :: splitUtf16 r'
        else none :: splitUtf16 (v :: r')
    else if isLow u = true then none :: splitUtf16 r
    else some u :: splitUtf16 r := by
  rw [splitUtf16.eq_def]
  rfl

theorem utf8Of_utf8Bytes {c : Nat} {b : List Nat} (hc : IsScalar c) : Utf8Of c b ↔ b = utf8Bytes c := by
  unfold IsScalar at hc
  constructor
  · intro h
    unfold utf8Bytes
    cases h with
    | one _ h => rw [if_pos (by omega)]
    | two x y h1 h2 h3 =>
      rw [if_neg (by omega), if_pos (by omega)]
      have e1 : (x * 2 ^ 6 + y) / 64 = x := by omega
      have e2 : (x * 2 ^ 6 + y) % 64 = y := by omega
      rw [e1, e2]
    | three x y z h1 h2 h3 h4 =>
      rw [if_neg (by omega), if_neg (by omega), if_pos (by omega)]
      have e1 : (x * 2 ^ 12 + y * 2 ^ 6 + z) / 4096 = x := by omega
      have e2 : (x * 2 ^ 12 + y * 2 ^ 6 + z) / 64 % 64 = y := by omega
      have e3 : (x * 2 ^ 12 + y * 2 ^ 6 + z) % 64 = z := by omega
      rw [e1, e2, e3]
    | four w x y z h1 h2 h3 h4 h5 =>
      rw [if_neg (by omega), if_neg (by omega), if_neg (by omega)]
      have e1 : (w * 2 ^ 18 + x * 2 ^ 12 + y * 2 ^ 6 + z) / 262144 = w := by omega
      have e2 : (w * 2 ^ 18 + x * 2 ^ 12 + y * 2 ^ 6 + z) / 4096 % 64 = x := by omega
      have e3 : (w * 2 ^ 18 + x * 2 ^ 12 + y * 2 ^ 6 + z) / 64 % 64 = y := by omega
      have e4 : (w * 2 ^ 18 + x * 2 ^ 12 + y * 2 ^ 6 + z) % 64 = z := by omega
      rw [e1, e2, e3, e4]
  · rintro rfl
    unfold utf8Bytes
    split
    · exact .one c (by omega)
    split
    · have := Utf8Of.two (c / 64) (c % 64) (by omega) (by omega) (by omega)
      rwa [show c / 64 * 2 ^ 6 + c % 64 = c by omega] at this
    split
    · have := Utf8Of.three (c / 4096) (c / 64 % 64) (c % 64) (by omega) (by omega) (by omega) (by omega)
      rwa [show c / 4096 * 2 ^ 12 + c / 64 % 64 * 2 ^ 6 + c % 64 = c by omega] at this
    · have := Utf8Of.four (c / 262144) (c / 4096 % 64) (c / 64 % 64) (c % 64) (by omega) (by omega) (by omega) (by omega) (by omega)
      rwa [show c / 262144 * 2 ^ 18 + c / 4096 % 64 * 2 ^ 12 + c / 64 % 64 * 2 ^ 6 + c % 64 = c by omega] at this

theorem isUtf8_iff {bytes cs : List Nat} : IsUtf8 bytes cs ↔ (∀ c ∈ cs, IsScalar c) ∧ bytes = cs.flatMap utf8Bytes := by
  constructor
  · intro h
    induction h with
    | nil => simp
    | cons c b rest cs hc hb _ ih =>
      obtain ⟨h1, h2⟩ := ih
      refine ⟨by simpa using ⟨hc, h1⟩, ?_⟩
      rw [(utf8Of_utf8Bytes hc).1 hb, h2, List.flatMap_cons]
  · rintro ⟨h1, rfl⟩
    induction cs with
    | nil => exact .nil
    | cons c cs ih =>
      rw [List.flatMap_cons]
      exact .cons c _ _ cs (h1 c (by simp)) ((utf8Of_utf8Bytes (h1 c (by simp))).2 rfl) (ih fun c hc => h1 c (by simp [hc]))

theorem decode_utf8Bytes {c : Nat} (hc : IsScalar c) (rest : List Nat) :
    decodeUtf8 (utf8Bytes c ++ rest) = (decodeUtf8 rest).map (c :: ·) := by
  unfold IsScalar at hc
  unfold utf8Bytes
  split
  · rename_i h
    rw [List.singleton_append, decodeUtf8.eq_def]
    simp only
    rw [if_pos h]
  split
  · simp only [List.cons_append, List.nil_append]
    rw [decodeUtf8.eq_def]
    simp only
    rw [if_neg (by omega)]
    rw [if_pos (by omega), if_pos (by simp [okCont]; omega)]
    rw [show (192 + c / 64 - 192) * 64 + (128 + c % 64 - 128) = c by omega]
  split
  · simp only [List.cons_append, List.nil_append]
    rw [decodeUtf8.eq_def]
    simp only
    rw [if_neg (by omega)]
    rw [if_neg (by omega), if_pos (by omega)]
    rw [if_pos ?_]
    · rw [show (224 + c / 4096 - 224) * 4096 + (128 + c / 64 % 64 - 128) * 64 + (128 + c % 64 - 128) = c by omega]
    · unfold okSecond3
      split
      · simp [okCont]; omega
      split
      · simp [okCont]; omega
      · simp [okCont]; omega
  · simp only [List.cons_append, List.nil_append]
    rw [decodeUtf8.eq_def]
    simp only
    rw [if_neg (by omega)]
    rw [if_neg (by omega), if_neg (by omega), if_pos (by omega)]
    rw [if_pos ?_]
    · rw [show (240 + c / 262144 - 240) * 262144 + (128 + c / 4096 % 64 - 128) * 4096 + (128 + c / 64 % 64 - 128) * 64 +
        (128 + c % 64 - 128) = c by omega]
    · unfold okSecond4
      split
      · simp [okCont]; omega
      split
      · simp [okCont]; omega
      · simp [okCont]; omega

theorem decode_encode {cs : List Nat} (h : ∀ c ∈ cs, IsScalar c) : decodeUtf8 (cs.flatMap utf8Bytes) = some cs := by
  induction cs with
  | nil => rfl
  | cons c cs ih =>
    rw [List.flatMap_cons, decode_utf8Bytes (h c (by simp)), ih fun c hc => h c (by simp [hc])]
    rfl

theorem encode_decode : ∀ (bytes cs : List Nat), decodeUtf8 bytes = some cs →
    (∀ c ∈ cs, IsScalar c) ∧ bytes = cs.flatMap utf8Bytes := by
  intro bytes
  induction hn : bytes.length using Nat.strongRecOn generalizing bytes with
  | _ n ih =>
  intro cs h
  have fin : ∀ (rest : List Nat) (c : Nat) (pre : List Nat), rest.length < n → IsScalar c → utf8Bytes c = pre →
      bytes = pre ++ rest → (decodeUtf8 rest).map (c :: ·) = some cs →
      (∀ c ∈ cs, IsScalar c) ∧ bytes = cs.flatMap utf8Bytes := by
    intro rest c pre hl hc hp hb hd
    cases hr : decodeUtf8 rest with
    | none => rw [hr] at hd; cases hd
    | some cs' =>
      rw [hr] at hd
      simp only [Option.map_some, Option.some.injEq] at hd
      obtain ⟨h1, h2⟩ := ih rest.length hl rest rfl cs' hr
      subst hd
      refine ⟨by simpa using ⟨hc, h1⟩, ?_⟩
      rw [hb, List.flatMap_cons, hp, ← h2]
  unfold decodeUtf8 at h
  split at h
  · cases h; simp
  rename_i b0 r0
  simp only [List.length_cons] at hn
  split at h
  · rename_i hb
    refine fin r0 b0 [b0] (by omega) (.inl (by omega)) ?_ rfl h
    unfold utf8Bytes; rw [if_pos hb]
  rename_i hb0
  split at h
  · cases h
  rename_i b1 r1
  simp only [List.length_cons] at hn
  split at h
  · rename_i hb
    split at h
    · rename_i hc
      simp only [okCont, Bool.and_eq_true, decide_eq_true_eq] at hc
      refine fin r1 _ [b0, b1] (by omega) ?_ ?_ rfl h
      · unfold IsScalar; omega
      · unfold utf8Bytes
        rw [if_neg (by omega), if_pos (by omega)]
        rw [show 192 + ((b0 - 192) * 64 + (b1 - 128)) / 64 = b0 by omega,
          show 128 + ((b0 - 192) * 64 + (b1 - 128)) % 64 = b1 by omega]
    · cases h
  rename_i hb1
  split at h
  · cases h
  rename_i b2 r2
  simp only [List.length_cons] at hn
  split at h
  · rename_i hb
    split at h
    · rename_i hc
      simp only [okCont, Bool.and_eq_true, decide_eq_true_eq] at hc
      obtain ⟨hc1, hc2⟩ := hc
      have hs : 0x80 ≤ b1 ∧ b1 ≤ 0xBF ∧ (b0 = 0xE0 → 0xA0 ≤ b1) ∧ (b0 = 0xED → b1 ≤ 0x9F) := by
        unfold okSecond3 at hc1
        split at hc1
        · simp at hc1; omega
        split at hc1
        · simp at hc1; omega
        · simp at hc1; omega
      refine fin r2 _ [b0, b1, b2] (by omega) ?_ ?_ rfl h
      · unfold IsScalar; omega
      · unfold utf8Bytes
        rw [if_neg (by omega), if_neg (by omega), if_pos (by omega)]
        rw [show 224 + ((b0 - 224) * 4096 + (b1 - 128) * 64 + (b2 - 128)) / 4096 = b0 by omega,
          show 128 + ((b0 - 224) * 4096 + (b1 - 128) * 64 + (b2 - 128)) / 64 % 64 = b1 by omega,
          show 128 + ((b0 - 224) * 4096 + (b1 - 128) * 64 + (b2 - 128)) % 64 = b2 by omega]
    · cases h
  rename_i hb2
  split at h
  · cases h
  rename_i b3 r3
  simp only [List.length_cons] at hn
  split at h
  · rename_i hb
    split at h
    · rename_i hc
      simp only [okCont, Bool.and_eq_true, decide_eq_true_eq] at hc
      obtain ⟨⟨hc1, hc2⟩, hc3⟩ := hc
      have hs : 0x80 ≤ b1 ∧ b1 ≤ 0xBF ∧ (b0 = 0xF0 → 0x90 ≤ b1) ∧ (b0 = 0xF4 → b1 ≤ 0x8F) := by
        unfold okSecond4 at hc1
        split at hc1
        · simp at hc1; omega
        split at hc1
        · simp at hc1; omega
        · simp at hc1; omega
      refine fin r3 _ [b0, b1, b2, b3] (by omega) ?_ ?_ rfl h
      · unfold IsScalar; omega
      · unfold utf8Bytes
        rw [if_neg (by omega), if_neg (by omega), if_neg (by omega)]
        rw [show 240 + ((b0 - 240) * 262144 + (b1 - 128) * 4096 + (b2 - 128) * 64 + (b3 - 128)) / 262144 = b0 by omega,
          show 128 + ((b0 - 240) * 262144 + (b1 - 128) * 4096 + (b2 - 128) * 64 + (b3 - 128)) / 4096 % 64 = b1 by omega,
          show 128 + ((b0 - 240) * 262144 + (b1 - 128) * 4096 + (b2 - 128) * 64 + (b3 - 128)) / 64 % 64 = b2 by omega,
          show 128 + ((b0 - 240) * 262144 + (b1 - 128) * 4096 + (b2 - 128) * 64 + (b3 - 128)) % 64 = b3 by omega]
    · cases h
  · cases h

theorem decodeUtf8_iff (bytes cs : List Nat) : decodeUtf8 bytes = some cs ↔ IsUtf8 bytes cs := by
  rw [isUtf8_iff]
  refine ⟨encode_decode bytes cs, ?_⟩
  rintro ⟨h1, rfl⟩
  exact decode_encode h1

theorem utf16Of_units {c : Nat} {b : List Nat} (hc : IsScalar c) : Utf16Of c b ↔ b = utf16Units c := by
  unfold IsScalar at hc
  constructor
  · intro h
    unfold utf16Units
    cases h with
    | one _ h => rw [if_pos (by omega)]
    | two x y h1 h2 =>
      rw [if_neg (by omega)]
      rw [show (2 ^ 16 + x * 2 ^ 10 + y - 65536) / 1024 = x by omega,
        show (2 ^ 16 + x * 2 ^ 10 + y - 65536) % 1024 = y by omega]
  · rintro rfl
    unfold utf16Units
    split
    · exact .one c (by omega)
    · have := Utf16Of.two ((c - 65536) / 1024) ((c - 65536) % 1024) (by omega) (by omega)
      rwa [show 2 ^ 16 + (c - 65536) / 1024 * 2 ^ 10 + (c - 65536) % 1024 = c by omega] at this

theorem isUtf16_iff {units cs : List Nat} : IsUtf16 units cs ↔ (∀ c ∈ cs, IsScalar c) ∧ units = cs.flatMap utf16Units := by
  constructor
  · intro h
    induction h with
    | nil => simp
    | cons c b rest cs hc hb _ ih =>
      obtain ⟨h1, h2⟩ := ih
      refine ⟨by simpa using ⟨hc, h1⟩, ?_⟩
      rw [(utf16Of_units hc).1 hb, h2, List.flatMap_cons]
  · rintro ⟨h1, rfl⟩
    induction cs with
    | nil => exact .nil
    | cons c cs ih =>
      rw [List.flatMap_cons]
      exact .cons c _ _ cs (h1 c (by simp)) ((utf16Of_units (h1 c (by simp))).2 rfl) (ih fun c hc => h1 c (by simp [hc]))

theorem split_units {c : Nat} (hc : IsScalar c) (rest : List Nat) :
    splitUtf16 (utf16Units c ++ rest) = some c :: splitUtf16 rest := by
  unfold IsScalar at hc
  unfold utf16Units
  split
  · rw [List.singleton_append, splitUtf16_cons]
    rw [if_neg (by simp [isHigh]; omega), if_neg (by simp [isLow]; omega)]
  · simp only [List.cons_append, List.nil_append]
    rw [splitUtf16_cons]
    rw [if_pos (by simp [isHigh]; omega)]
    simp only
    rw [if_pos (by simp [isLow]; omega)]
    unfold pairValue
    rw [show 65536 + (55296 + (c - 65536) / 1024 - 55296) * 1024 + (56320 + (c - 65536) % 1024 - 56320) = c by omega]

theorem split_encode {cs : List Nat} (h : ∀ c ∈ cs, IsScalar c) : splitUtf16 (cs.flatMap utf16Units) = cs.map some := by
  induction cs with
  | nil => rw [List.flatMap_nil, splitUtf16_nil, List.map_nil]
  | cons c cs ih =>
    rw [List.flatMap_cons, split_units (h c (by simp)), ih fun c hc => h c (by simp [hc]), List.map_cons]

theorem allSome_map (cs : List Nat) : allSome (cs.map some) = some cs := by
  induction cs with
  | nil => rfl
  | cons c cs ih => rw [List.map_cons, allSome, ih]; rfl

/-- Every piece of a split is a scalar value or a lone surrogate. -/
theorem split_scalar : ∀ (us : List Nat), (∀ u ∈ us, u < 2 ^ 16) → ∀ c, some c ∈ splitUtf16 us → IsScalar c := by
  intro us
  induction hn : us.length using Nat.strongRecOn generalizing us with
  | _ n ih =>
  intro hu c hc
  cases us with
  | nil => rw [splitUtf16_nil] at hc; simp at hc
  | cons u r =>
    simp only [List.length_cons] at hn
    have h0 := hu u (by simp)
    have hr : ∀ x ∈ r, x < 2 ^ 16 := fun x hx => hu x (by simp [hx])
    rw [splitUtf16_cons] at hc
    split at hc
    · rename_i hh
      simp [isHigh] at hh
      split at hc
      · simp at hc
      · rename_i v r'
        simp only [List.length_cons] at hn
        split at hc
        · rename_i hl
          simp [isLow] at hl
          rcases List.mem_cons.1 hc with hc | hc
          · injection hc with hc
            unfold pairValue at hc
            unfold IsScalar; omega
          · exact ih r'.length (by omega) r' rfl (fun x hx => hr x (by simp [hx])) c hc
        · rcases List.mem_cons.1 hc with hc | hc
          · cases hc
          · exact ih (v :: r').length (by simp; omega) (v :: r') rfl hr c hc
    · rename_i hh
      simp [isHigh] at hh
      split at hc
      · rcases List.mem_cons.1 hc with hc | hc
        · cases hc
        · exact ih r.length (by omega) r rfl hr c hc
      · rename_i hl
        simp [isLow] at hl
        rcases List.mem_cons.1 hc with hc | hc
        · injection hc with hc
          unfold IsScalar; omega
        · exact ih r.length (by omega) r rfl hr c hc

theorem split_decode : ∀ (us cs : List Nat), (∀ u ∈ us, u < 2 ^ 16) → splitUtf16 us = cs.map some →
    us = cs.flatMap utf16Units := by
  intro us
  induction hn : us.length using Nat.strongRecOn generalizing us with
  | _ n ih =>
  intro cs hu h
  cases us with
  | nil =>
    rw [splitUtf16_nil] at h
    cases cs with
    | nil => rfl
    | cons c cs => cases h
  | cons u r =>
    simp only [List.length_cons] at hn
    have h0 := hu u (by simp)
    have hr : ∀ x ∈ r, x < 2 ^ 16 := fun x hx => hu x (by simp [hx])
    rw [splitUtf16_cons] at h
    cases cs with
    | nil =>
      rw [List.map_nil] at h
      split at h
      · split at h
        · cases h
        · split at h <;> cases h
      · split at h <;> cases h
    | cons c cs =>
      rw [List.map_cons] at h
      rw [List.flatMap_cons]
      split at h
      · rename_i hh
        simp [isHigh] at hh
        split at h
        · cases h
        · rename_i v r'
          simp only [List.length_cons] at hn
          split at h
          · rename_i hl
            simp [isLow] at hl
            injection h with h1 h2
            replace h1 := Option.some.inj h1
            unfold pairValue at h1
            rw [← ih r'.length (by omega) r' rfl cs (fun x hx => hr x (by simp [hx])) h2]
            unfold utf16Units
            rw [if_neg (by omega)]
            rw [show 55296 + (c - 65536) / 1024 = u by omega, show 56320 + (c - 65536) % 1024 = v by omega]
            rfl
          · cases h
      · split at h
        · cases h
        · injection h with h1 h2
          injection h1 with h1
          rw [← ih r.length (by omega) r rfl cs hr h2]
          unfold utf16Units
          rw [if_pos (by omega), h1]
          rfl

theorem allSome_eq {l : List (Option Nat)} {cs : List Nat} : allSome l = some cs ↔ l = cs.map some := by
  constructor
  · induction l generalizing cs with
    | nil => intro h; cases h; rfl
    | cons o l ih =>
      intro h
      cases o with
      | none => cases h
      | some c =>
        rw [allSome] at h
        cases hl : allSome l with
        | none => rw [hl] at h; cases h
        | some cs' =>
          rw [hl] at h
          cases h
          rw [ih hl, List.map_cons]
  · rintro rfl
    exact allSome_map cs

theorem decodeUtf16_iff (us cs : List Nat) (hu : ∀ u ∈ us, u < 2 ^ 16) : decodeUtf16 us = some cs ↔ IsUtf16 us cs := by
  rw [isUtf16_iff]
  unfold decodeUtf16
  rw [allSome_eq]
  constructor
  · intro h
    refine ⟨fun c hc => split_scalar us hu c ?_, split_decode us cs hu h⟩
    rw [h]
    exact List.mem_map.2 ⟨c, hc, rfl⟩
  · rintro ⟨h1, rfl⟩
    exact split_encode h1

/-! ## C63: the native string constructors accept exactly the valid encodings -/

/-- C63: `String__copy_utf8` builds a string exactly when the bytes are the UTF-8 encoding of some text, the string then
holds those very bytes; otherwise the call panics. -/
theorem C63_copy_utf8_accepts_exactly_utf8 (bytes : List Nat) :
    (∀ s : NativeString, copyUtf8 bytes = .ok s ↔ stringValue s = bytes ∧ ∃ cs : List Nat, IsUtf8 bytes cs) ∧
    ((∃ m, copyUtf8 bytes = .panic m) ↔ ¬ ∃ cs : List Nat, IsUtf8 bytes cs) := by
  unfold copyUtf8
  cases h : decodeUtf8 bytes with
  | none =>
    have hno : ¬ ∃ cs : List Nat, IsUtf8 bytes cs := by
      rintro ⟨cs, hcs⟩
      rw [(decodeUtf8_iff bytes cs).2 hcs] at h
      cases h
    exact ⟨fun s => ⟨fun e => (by cases e), fun e => absurd e.2 hno⟩, ⟨fun _ => hno, fun _ => ⟨_, rfl⟩⟩⟩
  | some cs =>
    have hyes : ∃ cs : List Nat, IsUtf8 bytes cs := ⟨cs, (decodeUtf8_iff bytes cs).1 h⟩
    refine ⟨fun s => ⟨fun e => ?_, fun e => ?_⟩, ⟨fun e => ?_, fun e => absurd hyes e⟩⟩
    · cases e
      exact ⟨rfl, hyes⟩
    · obtain ⟨e, _⟩ := e
      cases s
      cases e
      rfl
    · obtain ⟨m, e⟩ := e
      cases e

/-- C63: `String__copy_utf16` builds a string exactly when the units are the UTF-16 encoding of some text, and the string
is then the UTF-8 encoding of the same text; otherwise the call panics. -/
theorem C63_copy_utf16_transcodes (units : List Nat) (hu : ∀ u ∈ units, u < 2 ^ 16) :
    (∀ s : NativeString, copyUtf16 units = .ok s ↔ ∃ cs : List Nat, IsUtf16 units cs ∧ IsUtf8 (stringValue s) cs) ∧
    ((∃ m, copyUtf16 units = .panic m) ↔ ¬ ∃ cs : List Nat, IsUtf16 units cs) := by
  unfold copyUtf16
  cases h : decodeUtf16 units with
  | none =>
    have hno : ∀ cs : List Nat, ¬ IsUtf16 units cs := by
      intro cs hcs
      rw [(decodeUtf16_iff units cs hu).2 hcs] at h
      cases h
    exact ⟨fun s => ⟨fun e => (by cases e), fun ⟨cs, e, _⟩ => absurd e (hno cs)⟩,
      ⟨fun _ ⟨cs, e⟩ => hno cs e, fun _ => ⟨_, rfl⟩⟩⟩
  | some cs =>
    have hyes := (decodeUtf16_iff units cs hu).1 h
    refine ⟨fun s => ⟨fun e => ?_, fun e => ?_⟩, ⟨fun e => ?_, fun e => absurd ⟨cs, hyes⟩ e⟩⟩
    · cases e
      exact ⟨cs, hyes, isUtf8_iff.2 ⟨(isUtf16_iff.1 hyes).1, rfl⟩⟩
    · obtain ⟨cs', h1, h2⟩ := e
      have := (decodeUtf16_iff units cs' hu).2 h1
      rw [h] at this
      cases this
      obtain ⟨_, h3⟩ := isUtf8_iff.1 h2
      cases s
      unfold stringValue at h3
      cases h3
      rfl
    · obtain ⟨m, e⟩ := e
      cases e

/-- C63: whichever constructor made it, a native string always holds valid UTF-8. -/
theorem C63_native_strings_are_utf8 (input : List Nat) (hu : ∀ u ∈ input, u < 2 ^ 16) (s : NativeString)
    (h : copyUtf8 input = .ok s ∨ copyUtf16 input = .ok s) : ∃ cs : List Nat, IsUtf8 (stringValue s) cs := by
  rcases h with h | h
  · obtain ⟨h1, h2⟩ := ((C63_copy_utf8_accepts_exactly_utf8 input).1 s).1 h
    rw [h1]; exact h2
  · obtain ⟨cs, _, h2⟩ := ((C63_copy_utf16_transcodes input hu).1 s).1 h
    exact ⟨cs, h2⟩

/-- "é€😀" in UTF-8: two, three and four bytes. -/
example : copyUtf8 [0xC3, 0xA9, 0xE2, 0x82, 0xAC, 0xF0, 0x9F, 0x98, 0x80] =
    .ok ⟨[0xC3, 0xA9, 0xE2, 0x82, 0xAC, 0xF0, 0x9F, 0x98, 0x80]⟩ := by decide +kernel
/-- An overlong encoding of '/', a surrogate, and a value past U+10FFFF are refused. -/
example : (∃ m, copyUtf8 [0xC0, 0xAF] = .panic m) ∧ (∃ m, copyUtf8 [0xED, 0xA0, 0x80] = .panic m) ∧
    ∃ m, copyUtf8 [0xF4, 0x90, 0x80, 0x80] = .panic m := ⟨⟨_, rfl⟩, ⟨_, rfl⟩, ⟨_, rfl⟩⟩

/-! ## C64: managed string → native string → managed string -/

/-- Specification: position `i` of `s` holds a surrogate that is not part of a pair. -/
def LoneSurrogateAt (s : List Nat) (i : Nat) : Prop :=
  ∃ u, s[i]? = some u ∧
    ((0xD800 ≤ u ∧ u < 0xDC00 ∧ ¬ ∃ v, s[i + 1]? = some v ∧ 0xDC00 ≤ v ∧ v < 0xE000) ∨
     (0xDC00 ≤ u ∧ u < 0xE000 ∧ ¬ ∃ w, 0 < i ∧ s[i - 1]? = some w ∧ 0xD800 ≤ w ∧ w < 0xDC00))

/-- Specification: `t` is `s` with every lone surrogate, and nothing else, replaced by U+FFFD. -/
def LoneReplaced (s t : List Nat) : Prop :=
  t.length = s.length ∧ ∀ (i : Nat) (u : Nat), s[i]? = some u →
    (LoneSurrogateAt s i → t[i]? = some 0xFFFD) ∧ (¬ LoneSurrogateAt s i → t[i]? = some u)

theorem units_replacement : utf16Units 0xFFFD = [0xFFFD] := by simp [utf16Units]

/-- The units that come back. -/
def cleaned (s : List Nat) : List Nat := (splitUtf16 s).flatMap fun c => utf16Units (c.getD 0xFFFD)

theorem lone_succ {u : Nat} {r : List Nat} (i : Nat)
    (h : i = 0 → isHigh u = true → ¬ ∃ v, r[0]? = some v ∧ 0xDC00 ≤ v ∧ v < 0xE000) :
    LoneSurrogateAt (u :: r) (i + 1) ↔ LoneSurrogateAt r i := by
  unfold LoneSurrogateAt
  simp only [List.getElem?_cons_succ]
  constructor
  · rintro ⟨x, hx, h1 | ⟨h1, h2, h3⟩⟩
    · exact ⟨x, hx, .inl h1⟩
    · refine ⟨x, hx, .inr ⟨h1, h2, ?_⟩⟩
      rintro ⟨w, hw0, hw1, hw2⟩
      refine h3 ⟨w, by omega, ?_, hw2⟩
      obtain ⟨j, rfl⟩ : ∃ j, i = j + 1 := ⟨i - 1, by omega⟩
      simpa using hw1
  · rintro ⟨x, hx, h1 | ⟨h1, h2, h3⟩⟩
    · exact ⟨x, hx, .inl h1⟩
    · refine ⟨x, hx, .inr ⟨h1, h2, ?_⟩⟩
      rintro ⟨w, hw0, hw1, hw2⟩
      cases i with
      | zero =>
        simp only [Nat.zero_add, Nat.sub_self, List.getElem?_cons_zero, Option.some.injEq] at hw1
        subst hw1
        exact h rfl (by simp [isHigh]; omega) ⟨x, hx, h1, h2⟩
      | succ j =>
        refine h3 ⟨w, by omega, ?_, hw2⟩
        simpa using hw1

theorem units_pairValue {u v : Nat} (hh' : 55296 ≤ u ∧ u ≤ 56319) (hl' : 56320 ≤ v ∧ v ≤ 57343) : ∀ c : Nat, c = pairValue u v → utf16Units c = [u, v] := by
    intro c hc
    unfold pairValue at hc
    unfold utf16Units
    rw [if_neg (by omega)]
    rw [show 55296 + (c - 65536) / 1024 = u by omega, show 56320 + (c - 65536) % 1024 = v by omega]

theorem split_pair {u v : Nat} (hh : isHigh u = true) (hl : isLow v = true) (r' : List Nat) :
    splitUtf16 (u :: v :: r') = some (pairValue u v) :: splitUtf16 r' := by
  rw [splitUtf16_cons, if_pos hh]
  simp only
  rw [if_pos hl]

theorem cleaned_pair {u v : Nat} (hh : isHigh u = true) (hl : isLow v = true) (r' : List Nat) :
    cleaned (u :: v :: r') = u :: v :: cleaned r' := by
  have hh' := hh
  have hl' := hl
  simp [isHigh] at hh'
  simp [isLow] at hl'
  unfold cleaned
  rw [split_pair hh hl]
  rw [List.flatMap_cons, Option.getD_some, units_pairValue hh' hl' _ rfl]
  simp only [List.cons_append, List.nil_append]

theorem cleaned_other {u : Nat} (hu : u < 2 ^ 16) (hh : ¬ isHigh u = true) (hl : ¬ isLow u = true) (r : List Nat) :
    cleaned (u :: r) = u :: cleaned r := by
  unfold cleaned
  rw [splitUtf16_cons, if_neg hh, if_neg hl, List.flatMap_cons]
  simp only [Option.getD_some]
  unfold utf16Units
  rw [if_pos (by omega), List.singleton_append]

theorem cleaned_spec : ∀ (s : List Nat), (∀ u ∈ s, u < 2 ^ 16) → LoneReplaced s (cleaned s) := by
  intro s
  induction hn : s.length using Nat.strongRecOn generalizing s with
  | _ n ih =>
  intro hu
  have cons : ∀ (u x : Nat) (r : List Nat), s = u :: r →
      (isHigh u = true → ¬ ∃ v, r[0]? = some v ∧ 0xDC00 ≤ v ∧ v < 0xE000) →
      (LoneSurrogateAt s 0 → x = 0xFFFD) → (¬ LoneSurrogateAt s 0 → x = u) →
      cleaned s = x :: cleaned r → LoneReplaced s (cleaned s) := by
    intro u x r hs hpair hx1 hx2 hc
    have hr : ∀ y ∈ r, y < 2 ^ 16 := fun y hy => hu y (by simp [hs, hy])
    obtain ⟨hl, hi⟩ := ih r.length (by simp [← hn, hs]) r rfl hr
    rw [hc]
    refine ⟨by rw [hs, List.length_cons, List.length_cons, hl], fun i y hy => ?_⟩
    cases i with
    | zero =>
      rw [hs] at hy
      simp only [List.getElem?_cons_zero, Option.some.injEq] at hy ⊢
      subst hy
      exact ⟨hx1, hx2⟩
    | succ i =>
      have hlone := lone_succ (u := u) (r := r) i (fun _ => hpair)
      rw [← hs] at hlone
      rw [hlone]
      rw [hs, List.getElem?_cons_succ] at hy
      rw [List.getElem?_cons_succ]
      exact hi i y hy
  cases s with
  | nil => exact ⟨by simp [cleaned, splitUtf16], fun i u h => by simp at h⟩
  | cons u r =>
    have h0 := hu u (by simp)
    have hr : ∀ x ∈ r, x < 2 ^ 16 := fun x hx => hu x (by simp [hx])
    by_cases hh : isHigh u = true
    · have hh' := hh
      simp [isHigh] at hh'
      cases r with
      | nil =>
        refine cons u 0xFFFD [] rfl (by simp) (fun _ => rfl) (fun hn => absurd ⟨u, rfl, .inl ⟨by omega, by omega, by simp⟩⟩ hn) ?_
        · simp [cleaned, splitUtf16, hh, utf16Units]
      | cons v r' =>
        by_cases hl : isLow v = true
        · have hl' := hl
          simp [isLow] at hl'
          have hc := cleaned_pair hh hl r'
          obtain ⟨hlen, hi⟩ := ih r'.length (by simp [← hn]; omega) r' rfl (fun x hx => hr x (by simp [hx]))
          rw [hc]
          refine ⟨by simp [hlen], fun i y hy => ?_⟩
          match i with
          | 0 =>
            simp only [List.getElem?_cons_zero, Option.some.injEq] at hy ⊢
            subst hy
            refine ⟨?_, fun _ => rfl⟩
            rintro ⟨u', e, h1 | h1⟩
            · exact absurd ⟨v, rfl, by omega, by omega⟩ h1.2.2
            · cases e; omega
          | 1 =>
            simp only [List.getElem?_cons_succ, List.getElem?_cons_zero, Option.some.injEq] at hy ⊢
            subst hy
            refine ⟨?_, fun _ => rfl⟩
            rintro ⟨u', e, h1 | h1⟩
            · simp only [List.getElem?_cons_succ, List.getElem?_cons_zero, Option.some.injEq] at e
              omega
            · exact absurd ⟨u, by omega, rfl, by omega, by omega⟩ h1.2.2
          | i + 2 =>
            have e1 := lone_succ (u := u) (r := v :: r') (i + 1) (fun h => by omega)
            have e2 := lone_succ (u := v) (r := r') i (fun _ h => by simp [isHigh] at h; omega)
            rw [e1, e2]
            simp only [List.getElem?_cons_succ] at hy ⊢
            exact hi i y hy
        · have hl' := hl
          simp [isLow] at hl'
          have hno : ¬ ∃ x, (v :: r')[0]? = some x ∧ 0xDC00 ≤ x ∧ x < 0xE000 := by
            rintro ⟨x, e, h1, h2⟩
            cases e
            omega
          refine cons u 0xFFFD (v :: r') rfl (fun _ => hno) (fun _ => rfl)
            (fun hn => absurd ⟨u, rfl, .inl ⟨by omega, by omega, hno⟩⟩ hn) ?_
          unfold cleaned
          rw [splitUtf16_cons, if_pos hh]
          simp only
          rw [if_neg hl, List.flatMap_cons, Option.getD_none, units_replacement, List.singleton_append]
    · have hh' := hh
      simp [isHigh] at hh'
      by_cases hl : isLow u = true
      · have hl' := hl
        simp [isLow] at hl'
        refine cons u 0xFFFD r rfl (fun h => absurd h hh) (fun _ => rfl)
          (fun hn => absurd ⟨u, rfl, .inr ⟨by omega, by omega, by simp⟩⟩ hn) ?_
        unfold cleaned
        rw [splitUtf16_cons, if_neg hh, if_pos hl, List.flatMap_cons, Option.getD_none, units_replacement,
          List.singleton_append]
      · have hl' := hl
        simp [isLow] at hl'
        refine cons u u r rfl (fun h => absurd h hh) ?_ (fun _ => rfl) ?_
        · rintro ⟨u', e, h1 | h1⟩
          · cases e; omega
          · cases e; omega
        · exact cleaned_other (by omega) hh hl r

theorem getBytes_utf8 (s : List Nat) (hu : ∀ u ∈ s, u < 2 ^ 16) :
    IsUtf8 (getBytes s) ((splitUtf16 s).map fun c => c.getD 0xFFFD) := by
  rw [isUtf8_iff]
  refine ⟨fun c hc => ?_, ?_⟩
  · obtain ⟨o, ho, rfl⟩ := List.mem_map.1 hc
    cases o with
    | none => exact .inr ⟨by decide, by decide⟩
    | some c => exact split_scalar s hu c ho
  · unfold getBytes
    rw [List.flatMap_map]

theorem getBytes_nil_iff (s : List Nat) : getBytes s = [] ↔ s = [] := by
  constructor
  · intro h
    cases s with
    | nil => rfl
    | cons u r =>
      exfalso
      have hne : ∀ c, utf8Bytes c ≠ [] := by
        intro c hc
        unfold utf8Bytes at hc
        split at hc
        · cases hc
        split at hc
        · cases hc
        split at hc <;> cases hc
      unfold getBytes at h
      rw [splitUtf16_cons] at h
      split at h
      · split at h
        · rw [List.flatMap_cons] at h
          exact hne _ (List.append_eq_nil_iff.1 h).1
        · split at h
          · rw [List.flatMap_cons] at h
            exact hne _ (List.append_eq_nil_iff.1 h).1
          · rw [List.flatMap_cons] at h
            exact hne _ (List.append_eq_nil_iff.1 h).1
      · split at h
        · rw [List.flatMap_cons] at h
          exact hne _ (List.append_eq_nil_iff.1 h).1
        · rw [List.flatMap_cons] at h
          exact hne _ (List.append_eq_nil_iff.1 h).1
  · rintro rfl
    simp [getBytes, splitUtf16]

theorem loneReplaced_unique {s t t' : List Nat} (h : LoneReplaced s t) (h' : LoneReplaced s t') : t = t' := by
  apply List.ext_getElem?
  intro i
  by_cases hi : i < s.length
  · have e : s[i]? = some s[i] := List.getElem?_eq_getElem hi
    by_cases hl : LoneSurrogateAt s i
    · rw [(h.2 i _ e).1 hl, (h'.2 i _ e).1 hl]
    · rw [(h.2 i _ e).2 hl, (h'.2 i _ e).2 hl]
  · rw [List.getElem?_eq_none (by have := h.1; omega), List.getElem?_eq_none (by have := h'.1; omega)]

theorem loneReplaced_self {s : List Nat} : LoneReplaced s s ↔ ∀ i, ¬ LoneSurrogateAt s i := by
  constructor
  · intro h i hl
    obtain ⟨u, hu, hc⟩ := hl
    have := (h.2 i u hu).1 ⟨u, hu, hc⟩
    rw [hu] at this
    cases this
    omega
  · intro h
    exact ⟨rfl, fun i u hu => ⟨fun hl => absurd hl (h i), fun _ => hu⟩⟩

/-- C64 (partial: the empty string throws and lone surrogates are replaced, see the negations): the managed constructor
succeeds on every non-empty string without ever reaching the native panic, the native string holds valid UTF-8, and `Value`
gives back the string with exactly its lone surrogates replaced by U+FFFD. -/
theorem C64_string_round_trip_partial (s : List Nat) (hu : ∀ u ∈ s, u < 2 ^ 16) (hne : s ≠ []) :
    ∃ n t, rstringNew s = .ok n ∧ (∃ cs : List Nat, IsUtf8 (stringValue n) cs) ∧ rstringValue n = some t ∧
      LoneReplaced s t := by
  have hb := getBytes_utf8 s hu
  have hd := (decodeUtf8_iff _ _).2 hb
  refine ⟨⟨getBytes s⟩, cleaned s, ?_, ⟨_, hb⟩, ?_, cleaned_spec s hu⟩
  · unfold rstringNew
    simp only
    rw [if_neg]
    · unfold copyUtf8
      rw [hd]
    · intro h
      exact hne ((getBytes_nil_iff s).1 (List.isEmpty_iff.1 h))
  · unfold rstringValue getString stringValue cleaned
    simp only
    rw [hd, Option.map_some, List.flatMap_map]

/-- C64: the string read back is the string put in exactly when it is non-empty and has no lone surrogate. -/
theorem C64_round_trip_exact_iff_partial (s : List Nat) (hu : ∀ u ∈ s, u < 2 ^ 16) :
    (∃ n, rstringNew s = .ok n ∧ rstringValue n = some s) ↔ s ≠ [] ∧ ∀ i, ¬ LoneSurrogateAt s i := by
  constructor
  · rintro ⟨n, h1, h2⟩
    have hne : s ≠ [] := by
      rintro rfl
      simp [rstringNew, getBytes, splitUtf16] at h1
    obtain ⟨n', t, h3, _, h4, h5⟩ := C64_string_round_trip_partial s hu hne
    rw [h1] at h3
    cases h3
    rw [h2] at h4
    cases h4
    exact ⟨hne, loneReplaced_self.1 h5⟩
  · rintro ⟨hne, hl⟩
    obtain ⟨n', t, h3, _, h4, h5⟩ := C64_string_round_trip_partial s hu hne
    refine ⟨n', h3, ?_⟩
    rw [h4, loneReplaced_unique h5 (loneReplaced_self.2 hl)]

/-- C64: strings the round trip keeps apart come back distinct: the round trip is injective on well-formed strings. -/
theorem C64_distinct_strings_distinct_bytes (s t : List Nat) (hs : ∀ u ∈ s, u < 2 ^ 16) (ht : ∀ u ∈ t, u < 2 ^ 16)
    (ls : ∀ i, ¬ LoneSurrogateAt s i) (lt : ∀ i, ¬ LoneSurrogateAt t i) (n : NativeString)
    (h1 : rstringNew s = .ok n) (h2 : rstringNew t = .ok n) : s = t := by
  have ne : ∀ x : List Nat, rstringNew x = .ok n → x ≠ [] := by
    rintro x h rfl
    simp [rstringNew, getBytes, splitUtf16] at h
  obtain ⟨a, ha, hva⟩ := (C64_round_trip_exact_iff_partial s hs).2 ⟨ne s h1, ls⟩
  obtain ⟨b, hb, hvb⟩ := (C64_round_trip_exact_iff_partial t ht).2 ⟨ne t h2, lt⟩
  rw [h1] at ha
  rw [h2] at hb
  cases ha
  cases hb
  rw [hva] at hvb
  exact Option.some.inj hvb

/-- C64: the unrestricted round trip is false: the empty string cannot be sent at all. -/
theorem C64_empty_string_negation : ¬ ∃ n, rstringNew [] = .ok n := by
  rintro ⟨n, h⟩
  simp [rstringNew, getBytes, splitUtf16] at h

/-- C64: the unrestricted round trip is false: "a\uD800" comes back as "a\uFFFD". -/
theorem C64_lone_surrogate_negation : ∃ n, rstringNew [0x61, 0xD800] = .ok n ∧ rstringValue n = some [0x61, 0xFFFD] :=
  ⟨⟨[0x61, 0xEF, 0xBF, 0xBD]⟩, by
    simp [rstringNew, getBytes, splitUtf16, isHigh, isLow, utf8Bytes, copyUtf8, decodeUtf8, okSecond3, okCont],
    by decide +kernel⟩

/-- "a😀" meets the hypotheses of the exact round trip. -/
example : ([0x61, 0xD83D, 0xDE00] : List Nat) ≠ [] ∧ ∀ i, ¬ LoneSurrogateAt [0x61, 0xD83D, 0xDE00] i := by
  refine ⟨by simp, fun i => ?_⟩
  rintro ⟨u, hu, h⟩
  match i with
  | 0 => cases hu; omega
  | 1 =>
    cases hu
    rcases h with h | h
    · exact h.2.2 ⟨0xDE00, rfl, by omega, by omega⟩
    · omega
  | 2 =>
    cases hu
    rcases h with h | h
    · omega
    · exact h.2.2 ⟨0xD83D, by omega, rfl, by omega, by omega⟩
  | i + 3 => simp at hu

end Verif.Props
