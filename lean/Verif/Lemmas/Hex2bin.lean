import Verif.Spec.Hex2bin
import Verif.Lemmas.Bytes
import Mathlib.Tactic.Ring

/-! Lemmas for the program that turns the output of `hexdump` back into bytes. -/

namespace Couchstore

theorem hexVal_digit {c : UInt8} {d : Nat} (h : IsHexDigit c d) : hexVal c = some d := by
  unfold hexVal
  rcases h with ⟨h1, h2⟩ | ⟨h1, h2, h3 | h3⟩
  · rw [if_pos (by omega)]; congr 1; omega
  · rw [if_neg (by omega), if_pos (by omega)]; congr 1; omega
  · rw [if_neg (by omega), if_neg (by omega), if_pos (by omega)]; congr 1; omega

/-- What follows does not begin with a digit. -/
def NoDigit (r : Bytes) : Prop := ∀ c, r.head? = some c → hexVal c = none

theorem unhex_none {r : Bytes} (h : NoDigit r) (v : Nat) : unhex v r = (v, r) := by
  cases r with
  | nil => rfl
  | cons c r =>
    unfold unhex
    rw [h c rfl]

theorem unhex_text {text : Bytes} {ds : List Nat} (ht : HexText text ds) {r : Bytes} (hr : NoDigit r) (v : Nat) :
    unhex v (text ++ r) = (ds.foldl (fun v d => (v * 16 + d) % 2 ^ 64) v, r) := by
  induction ht generalizing v with
  | nil => exact unhex_none hr v
  | cons h _ ih =>
    rw [List.cons_append]
    unfold unhex
    rw [hexVal_digit h]
    exact ih _

theorem foldl_mod (ds : List Nat) (v w : Nat) (h : v = w % 2 ^ 64) :
    ds.foldl (fun v d => (v * 16 + d) % 2 ^ 64) v = ds.foldl (fun v d => v * 16 + d) w % 2 ^ 64 := by
  induction ds generalizing v w with
  | nil => exact h
  | cons d ds ih =>
    rw [List.foldl_cons, List.foldl_cons]
    apply ih
    omega

theorem unhex_value {text : Bytes} {ds : List Nat} (ht : HexText text ds) {r : Bytes} (hr : NoDigit r)
    (hv : hexDigitsValue ds < 2 ^ 64) : unhex 0 (text ++ r) = (hexDigitsValue ds, r) := by
  rw [unhex_text ht hr, foldl_mod ds 0 0 rfl]
  exact congrArg (·, r) (Nat.mod_eq_of_lt hv)

theorem foldl_nibbles (b : Bytes) (v : Nat) : (b.flatMap nibbles).foldl (fun v d => v * 16 + d) v = v * 256 ^ b.length + beDec b := by
  induction b generalizing v with
  | nil => simp
  | cons x b ih =>
    rw [List.flatMap_cons, List.foldl_append]
    rw [ih]
    simp only [nibbles, List.foldl_cons, List.foldl_nil]
    have hx : (v * 16 + x.toNat / 16) * 16 + x.toNat % 16 = v * 256 + x.toNat := by omega
    rw [hx, beDec_cons, List.length_cons, pow_succ]
    ring

theorem hexDigitsValue_unit (g : Bytes) : hexDigitsValue (g.flatMap nibbles) = beDec g := by
  unfold hexDigitsValue
  rw [foldl_nibbles]
  omega

theorem valueBytes_eq (g : Bytes) : valueBytes g.length (beDec g.reverse) = g := by
  induction g with
  | nil => rfl
  | cons x g ih =>
    rw [List.reverse_cons, beDec_append, List.length_cons]
    unfold valueBytes
    have h1 : beDec [x] = x.toNat := by simp [beDec_cons]
    have hx : x.toNat < 256 := x.toNat_lt
    rw [h1, List.length_singleton, pow_one, show (beDec g.reverse * 256 + x.toNat) / 256 = beDec g.reverse by omega, ih]
    congr 1
    apply UInt8.toNat_inj.mp
    rw [UInt8.toNat_ofNat']
    omega

theorem units_noDigit {gs : List Bytes} {u : Bytes} (h : UnitsText gs u) : NoDigit u := by
  intro c hc
  cases h with
  | done n tail ht =>
    cases n with
    | zero =>
      rcases ht with rfl | ⟨r, rfl⟩
      · cases hc
      · cases hc; decide
    | succ n => rw [List.replicate_succ] at hc; cases hc; decide
  | unit n g text rest gs h0 h8 ht h => rw [List.replicate_succ] at hc; cases hc; decide

theorem dropSpaces (n : Nat) {r : Bytes} (hr : r.head? ≠ some 32) : (List.replicate n 32 ++ r).dropWhile (· == (32 : UInt8)) = r := by
  induction n with
  | zero =>
    cases r with
    | nil => rfl
    | cons c r =>
      have : c ≠ 32 := fun h => hr (by rw [h]; rfl)
      simp [this]
  | succ n ih => simp [List.replicate_succ, ih]

theorem hexText_head {text : Bytes} {ds : List Nat} (ht : HexText text ds) (hd : ds ≠ []) :
    ∃ c r, text = c :: r ∧ c ≠ 32 ∧ c ≠ 42 := by
  cases ht with
  | nil => exact absurd rfl hd
  | @cons c d text ds h _ =>
    refine ⟨c, text, rfl, ?_, ?_⟩ <;> rintro rfl <;> rcases h with ⟨h1, h2⟩ | ⟨h1, h2, h3 | h3⟩ <;> simp at * <;> omega

theorem lineBytes_units {gs : List Bytes} {u : Bytes} (h : UnitsText gs u) (n : Nat) (hn : u.length ≤ n) : lineBytes n u = gs.flatten := by
  induction h generalizing n with
  | done k tail ht =>
    cases n with
    | zero => rfl
    | succ n =>
      unfold lineBytes
      have hh : tail.head? ≠ some 32 := by
        rcases ht with rfl | ⟨r, rfl⟩ <;> simp
      have hnd : NoDigit tail := by
        intro c hc
        rcases ht with rfl | ⟨r, rfl⟩
        · cases hc
        · cases hc; decide
      simp only [dropSpaces k hh, unhex_none hnd]
      simp
  | unit k g text rest gs h0 h8 ht h ih =>
    have hlen : text.length = 2 * g.length := by
      rw [ht.length_eq, List.length_flatMap]
      simp [nibbles, Nat.mul_comm]
    have hg : 0 < g.length := List.length_pos_iff.mpr h0
    have hds : g.reverse.flatMap nibbles ≠ [] := by
      intro he
      have := congrArg List.length he
      rw [← ht.length_eq, hlen, List.length_nil] at this
      omega
    cases n with
    | zero => simp at hn
    | succ n =>
      obtain ⟨c, r, rfl, hc, -⟩ := hexText_head ht hds
      have hh : (c :: r ++ rest).head? ≠ some 32 := by simpa using hc
      have hv : hexDigitsValue (g.reverse.flatMap nibbles) < 2 ^ 64 := by
        rw [hexDigitsValue_unit]
        refine lt_of_lt_of_le (beDec_lt _) ?_
        rw [List.length_reverse]
        exact Nat.pow_le_pow_right (n := 256) (by decide) h8
      unfold lineBytes
      simp only [dropSpaces (k + 1) hh, unhex_value ht (units_noDigit h) hv]
      have hused : (c :: r ++ rest).length - rest.length = 2 * g.length := by
        rw [List.length_append, hlen]
        omega
      rw [hused, if_neg (by omega), show 2 * g.length / 2 = g.length by omega, hexDigitsValue_unit, valueBytes_eq, List.flatten_cons]
      rw [ih n]
      simp only [List.length_append, List.length_replicate, hlen] at hn
      omega

theorem fillChunk_eq (chunk : Bytes) (hc : chunk ≠ []) (k n : Nat) (out : Bytes) (pos : Nat) (hn : k ≤ n) :
    fillChunk chunk (pos + k * chunk.length) n (out, pos) = (out ++ (List.replicate k chunk).flatten, pos + k * chunk.length) := by
  have hl : 0 < chunk.length := List.length_pos_iff.mpr hc
  induction k generalizing n out pos with
  | zero =>
    cases n with
    | zero => simp [fillChunk]
    | succ n => simp [fillChunk]
  | succ k ih =>
    cases n with
    | zero => omega
    | succ n =>
      unfold fillChunk
      have hp : (k + 1) * chunk.length = k * chunk.length + chunk.length := Nat.succ_mul _ _
      rw [if_pos (by omega)]
      have := ih n (out ++ chunk) (pos + chunk.length) (by omega)
      rw [show pos + chunk.length + k * chunk.length = pos + (k + 1) * chunk.length by omega] at this
      rw [this, List.replicate_succ, List.flatten_cons, List.append_assoc]

theorem hexLine_row {text units : Bytes} {ds : List Nat} {gs : List Bytes} (h0 : ds ≠ []) (ht : HexText text ds)
    (hlt : hexDigitsValue ds < 2 ^ 64) (hu : UnitsText gs units) (st : HexState) :
    hexLine st (text ++ units) = some
      (let filled := if st.again ∧ st.chunk ≠ [] then fillChunk st.chunk (hexDigitsValue ds) (hexDigitsValue ds - st.pos) (st.out, st.pos)
        else (st.out ++ List.replicate (hexDigitsValue ds - st.pos) 63, max st.pos (hexDigitsValue ds))
       { out := filled.1 ++ gs.flatten, chunk := gs.flatten, pos := filled.2 + gs.flatten.length, again := false }) := by
  have hun := unhex_value ht (units_noDigit hu) hlt
  obtain ⟨c, r, rfl, -, hc⟩ := hexText_head ht h0
  rw [List.cons_append] at hun ⊢
  unfold hexLine
  dsimp only
  rw [if_neg hc, hun, if_neg (by simp; omega)]
  dsimp only
  rw [lineBytes_units hu _ (le_refl _)]

theorem hexLines_dump {pos : Nat} {prev bytes : Bytes} {star : Bool} {ls : List Bytes} (h : Dump pos prev star bytes ls)
    (out : Bytes) (hs : star = true → prev ≠ []) : hexLines ⟨out, prev, pos, star⟩ ls = out ++ bytes := by
  induction h generalizing out with
  | nil pos prev => simp [hexLines]
  | star pos prev bytes rest b ls h0 h ih =>
    have hl : hexLine ⟨out, prev, pos, b⟩ (42 :: rest) = some ⟨out, prev, pos, true⟩ := rfl
    unfold hexLines
    rw [hl]
    exact ih out fun _ => h0
  | row pos gap prev bytes text units ds gs ls h0 ht hv hlt hu h ih =>
    unfold hexLines
    rw [hexLine_row h0 ht (hv ▸ hlt) hu]
    dsimp only
    rw [if_neg (by simp), hv, show pos + gap - pos = gap by omega, show max pos (pos + gap) = pos + gap by omega, ih _ (by simp)]
    simp
  | copies pos k prev bytes text units ds gs ls h0 ht hv hlt hu h ih =>
    have hp := hs rfl
    unfold hexLines
    rw [hexLine_row h0 ht (hv ▸ hlt) hu]
    dsimp only
    have hk : k ≤ k * prev.length := Nat.le_mul_of_pos_right _ (List.length_pos_iff.mpr hp)
    rw [if_pos ⟨rfl, hp⟩, hv, fillChunk_eq prev hp k _ out pos (by omega), ih _ (by simp)]
    simp

theorem lowerDigit_isHex {d : Nat} (h : d < 16) : IsHexDigit (lowerDigit d) d := by
  unfold IsHexDigit lowerDigit
  rw [UInt8.toNat_ofNat']
  split <;> omega

theorem hex2_text (b : UInt8) : HexText (hex2 b) (nibbles b) := by
  have hb : b.toNat < 256 := b.toNat_lt
  exact .cons (lowerDigit_isHex (by omega)) (.cons (lowerDigit_isHex (by omega)) .nil)

theorem hex2s_text (b : Bytes) : HexText (b.flatMap hex2) (b.flatMap nibbles) := by
  induction b with
  | nil => exact .nil
  | cons x b ih =>
    rw [List.flatMap_cons, List.flatMap_cons]
    exact List.rel_append (hex2_text x) ih

theorem units_bytes (b rest : Bytes) (gs : List Bytes) (h : UnitsText gs rest) :
    UnitsText (b.map (fun x => [x]) ++ gs) (b.flatMap (fun x => 32 :: hex2 x) ++ rest) := by
  induction b with
  | nil => exact h
  | cons x b ih =>
    rw [List.flatMap_cons, List.map_cons, List.cons_append, List.append_assoc]
    refine UnitsText.unit 0 [x] (hex2 x) _ _ (by simp) (by simp) ?_ ih
    simpa using hex2_text x

theorem units_space {gs : List Bytes} {u : Bytes} (h : UnitsText gs u) : UnitsText gs (32 :: u) := by
  cases h with
  | done n tail ht => exact UnitsText.done (n + 1) tail ht
  | unit n g text rest gs h0 h8 ht h => exact UnitsText.unit (n + 1) g text rest gs h0 h8 ht h

theorem flatten_singletons (b : Bytes) : (b.map (fun x => [x])).flatten = b := by
  induction b with
  | nil => rfl
  | cons x b ih => rw [List.map_cons, List.flatten_cons, ih]; rfl

theorem canonicalLine_eq (offset : Nat) (row : Bytes) : ∃ gs u, UnitsText gs u ∧ gs.flatten = row ∧
    canonicalLine offset row = (beEnc 4 offset).flatMap hex2 ++ u := by
  have hdone : ∀ n, UnitsText [] (List.replicate n 32 ++ 124 :: (row.map shownChar ++ [124])) :=
    fun n => UnitsText.done n _ (Or.inr ⟨_, rfl⟩)
  by_cases hd : row.drop 8 = []
  · have h1 := units_bytes (row.take 8) _ _ (hdone (3 * (16 - row.length) + 3))
    refine ⟨_, _, units_space h1, ?_, ?_⟩
    · rw [List.flatten_append, flatten_singletons]
      conv => rhs; rw [← List.take_append_drop 8 row, hd]
      rfl
    · unfold canonicalLine
      rw [if_pos hd, if_pos hd, hd]
      simp only [List.append_assoc, List.cons_append, List.nil_append, List.flatMap_nil]
  · have h1 := units_bytes (row.drop 8) _ _ (hdone (3 * (16 - row.length) + 2))
    have h2 := units_space h1
    have h3 := units_bytes (row.take 8) _ _ h2
    refine ⟨_, _, units_space h3, ?_, ?_⟩
    · rw [List.flatten_append, List.flatten_append, flatten_singletons, flatten_singletons]
      simp
    · unfold canonicalLine
      rw [if_neg hd, if_neg hd]
      simp only [List.append_assoc, List.cons_append, List.nil_append]

theorem canonical_dump (offset : Nat) (prev bytes : Bytes) (h : offset + bytes.length < 2 ^ 32) :
    Dump offset prev false bytes (canonicalLines offset bytes) := by
  have hoff : hexDigitsValue ((beEnc 4 offset).flatMap nibbles) = offset + 0 := by
    rw [hexDigitsValue_unit, beDec_beEnc _ _ (by omega)]
    rfl
  have hne : (beEnc 4 offset).flatMap nibbles ≠ [] := by simp [beEnc, nibbles]
  fun_induction canonicalLines offset bytes generalizing prev with
  | case1 offset =>
    have := Dump.row offset 0 prev [] _ [] _ [] [] hne (hex2s_text (beEnc 4 offset)) hoff (by simp at h; omega)
      (UnitsText.done 0 [] (Or.inl rfl)) (Dump.nil _ _)
    simpa using this
  | case2 offset bytes hb ih =>
    have hl : (bytes.take 16).length + (bytes.drop 16).length = bytes.length := by
      rw [← List.length_append, List.take_append_drop]
    obtain ⟨gs, u, hu, hg, he⟩ := canonicalLine_eq offset (bytes.take 16)
    have hih := ih (bytes.take 16) (by omega) (by rw [hexDigitsValue_unit, beDec_beEnc _ _ (by omega)]; rfl) (by simp [beEnc, nibbles])
    rw [← hg] at hih
    have := Dump.row offset 0 prev _ _ u _ gs _ hne (hex2s_text (beEnc 4 offset)) hoff (by omega) hu hih
    rw [he]
    rw [hg] at this
    simpa using this

theorem offset_value {offset : Nat} (h : offset < 2 ^ 32) : hexDigitsValue ((beEnc 4 offset).flatMap nibbles) = offset := by
  rw [hexDigitsValue_unit, beDec_beEnc _ _ (by omega)]

theorem offset_digits (offset : Nat) : (beEnc 4 offset).flatMap nibbles ≠ [] := by simp [beEnc, nibbles]

theorem squeezed_dump (offset : Nat) (prev : Bytes) (star : Bool) (bytes : Bytes) (h : offset + bytes.length < 2 ^ 32) :
    (star = false → Dump offset prev false bytes (squeezedLines offset prev star bytes)) ∧
    (star = true → ∀ pos k, offset = pos + k * prev.length → prev ≠ [] →
      Dump pos prev true ((List.replicate k prev).flatten ++ bytes) (squeezedLines offset prev star bytes)) := by
  fun_induction squeezedLines offset prev star bytes with
  | case1 offset prev star =>
    have hlt : offset < 2 ^ 32 := by simpa using h
    refine ⟨fun _ => ?_, fun _ pos k hk hp => ?_⟩
    · have := Dump.row offset 0 prev [] _ [] _ [] [] (offset_digits offset) (hex2s_text (beEnc 4 offset)) (offset_value hlt) (by omega)
        (UnitsText.done 0 [] (Or.inl rfl)) (Dump.nil _ _)
      simpa using this
    · have := Dump.copies pos k prev [] _ [] _ [] [] (offset_digits offset) (hex2s_text (beEnc 4 offset)) (by rw [offset_value hlt, hk]) (by omega)
        (UnitsText.done 0 [] (Or.inl rfl)) (Dump.nil _ _)
      simpa using this
  | case2 offset star bytes hb ih =>
    have hl : (bytes.take 16).length + (bytes.drop 16).length = bytes.length := by
      rw [← List.length_append, List.take_append_drop]
    have hne : bytes.take 16 ≠ [] := by simpa using hb
    have hih := (ih (by omega)).2 rfl
    refine ⟨fun hs => ?_, fun hs pos k hk hp => ?_⟩
    · have := hih offset 1 (by omega) hne
      rw [hs, if_neg (by simp)]
      refine Dump.star _ _ _ [] _ _ hne ?_
      simpa using this
    · have := hih pos (k + 1) (by rw [hk, Nat.succ_mul]; omega) hne
      rw [hs, if_pos rfl]
      rw [List.replicate_succ', List.flatten_append, List.append_assoc] at this
      simpa using this
  | case3 offset prev star bytes hb hrow ih =>
    have hl : (bytes.take 16).length + (bytes.drop 16).length = bytes.length := by
      rw [← List.length_append, List.take_append_drop]
    obtain ⟨gs, u, hu, hg, he⟩ := canonicalLine_eq offset (bytes.take 16)
    have hih := (ih (by omega)).1 rfl
    have hlt : offset < 2 ^ 32 := by omega
    refine ⟨fun _ => ?_, fun _ pos k hk hp => ?_⟩
    · have := Dump.row offset 0 prev (bytes.drop 16) _ u _ gs _ (offset_digits offset) (hex2s_text (beEnc 4 offset)) (offset_value hlt)
        (by omega) hu (by rw [hg]; exact hih)
      rw [he]
      rw [hg] at this
      simpa using this
    · have := Dump.copies pos k prev (bytes.drop 16) _ u _ gs _ (offset_digits offset) (hex2s_text (beEnc 4 offset))
        (by rw [offset_value hlt, hk]) (by omega) hu (by rw [hg, ← hk]; exact hih)
      rw [he]
      rw [hg] at this
      simpa using this

end Couchstore
