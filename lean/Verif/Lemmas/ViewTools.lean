import Verif.Spec.ViewTools

/-! Lemmas for the input of the command line tools of the view engine. -/

namespace Couchstore.ViewTools

/-! ## Lines and numbers -/

theorem fgets_line {l : Bytes} (h : 10 ∉ l) : ∀ {n : Nat}, l.length + 1 ≤ n → ∀ rest, fgets n (l ++ 10 :: rest) = (l ++ [10], rest) := by
  induction l with
  | nil =>
    intro n hn rest
    obtain ⟨m, rfl⟩ : ∃ m, n = m + 1 := ⟨n - 1, by simp at hn; omega⟩
    simp [fgets]
  | cons b l ih =>
    intro n hn rest
    obtain ⟨m, rfl⟩ : ∃ m, n = m + 1 := ⟨n - 1, by simp at hn; omega⟩
    have hb : b ≠ 10 := fun e => h (by simp [e])
    have := ih (fun e => h (by simp [e])) (n := m) (by simp at hn; omega) rest
    simp [fgets, hb, this]

theorem fgets_eof {l : Bytes} (h : 10 ∉ l) : ∀ {n : Nat}, l.length ≤ n → fgets n l = (l, []) := by
  induction l with
  | nil => intro n _; cases n <;> rfl
  | cons b l ih =>
    intro n hn
    obtain ⟨m, rfl⟩ : ∃ m, n = m + 1 := ⟨n - 1, by simp at hn; omega⟩
    have hb : b ≠ 10 := fun e => h (by simp [e])
    have := ih (fun e => h (by simp [e])) (n := m) (by simp at hn; omega)
    simp [fgets, hb, this]

theorem takeWhile_all {p : UInt8 → Bool} {l : Bytes} (h : ∀ x ∈ l, p x = true) : l.takeWhile p = l := by
  induction l with
  | nil => rfl
  | cons a l ih => rw [List.takeWhile_cons_of_pos (h a (by simp)), ih fun x hx => h x (by simp [hx])]

theorem prefix_append_cases {p a b : Bytes} (h : p <+: a ++ b) : p <+: a ∨ ∃ q, p = a ++ q ∧ q <+: b := by
  obtain ⟨r, hr⟩ := h
  rcases List.append_eq_append_iff.mp hr with ⟨x, h1, h2⟩ | ⟨x, h1, h2⟩
  · exact Or.inl ⟨x, h1.symm⟩
  · exact Or.inr ⟨x, h1, ⟨r, h2.symm⟩⟩

theorem cstr_of {l : Bytes} (h : 0 ∉ l) : cstr l = l := by
  unfold cstr
  refine takeWhile_all ?_
  intro x hx
  simp only [decide_eq_true_eq, ne_eq]
  exact fun e => h (e ▸ hx)

/-- The text is read, and nothing more. -/
def Reads {α : Type} (m : In α) (t : Bytes) (v : α) : Prop := ∀ rest, m (t ++ rest) = .ok (v, rest)

/-- What happens where the text ends too early. -/
def Cut {α : Type} (m : In α) (t : Bytes) (P : Except Stop (α × Bytes) → Prop) : Prop :=
  ∀ p, p <+: t → p ≠ t → P (m p)

/-- The exit status is not 0. -/
def Bad (s : Int) : Prop := (if s < 0 then 100 + s else s) ≠ 0

/-- A failure that is reported. -/
def Fails {β : Type} (r : Except Stop β) : Prop := ∃ s, Bad s ∧ r = .error (.fail s)

theorem bad_alloc : Bad errAlloc := by unfold Bad; decide
theorem bad_read : Bad errRead := by unfold Bad; decide
theorem bad_args : Bad errArgs := by unfold Bad; decide
theorem bad_one : Bad 1 := by unfold Bad; decide

theorem bind_def {α β : Type} (m : In α) (k : α → In β) (i : Bytes) :
    (m >>= k) i = match m i with | .ok (a, i) => k a i | .error e => .error e := rfl

theorem bind_ok {α β : Type} {m : In α} {k : α → In β} {i i' : Bytes} {a : α} (h : m i = .ok (a, i')) : (m >>= k) i = k a i' := by
  rw [bind_def, h]

theorem bind_fails {α β : Type} {m : In α} {k : α → In β} {i : Bytes} (h : Fails (m i)) : Fails ((m >>= k) i) := by
  obtain ⟨s, hs, h⟩ := h
  exact ⟨s, hs, by rw [bind_def, h]⟩

theorem Reads.bind {α β : Type} {m : In α} {k : α → In β} {t1 t2 : Bytes} {a : α} {b : β} (h1 : Reads m t1 a)
    (h2 : Reads (k a) t2 b) : Reads (m >>= k) (t1 ++ t2) b := by
  intro rest
  rw [List.append_assoc, bind_ok (h1 _)]
  exact h2 rest

theorem Reads.pure {α : Type} (a : α) : Reads (In.pure a) [] a := fun _ => rfl

theorem Reads.last {α β : Type} {m : In α} {k : α → In β} {t1 : Bytes} {a : α} {b : β} (h1 : Reads m t1 a)
    (h2 : Reads (k a) [] b) : Reads (m >>= k) t1 b := by
  have := h1.bind h2
  rwa [List.append_nil] at this

theorem Reads.orFail {α : Type} {m : In α} {t : Bytes} {a : α} (h : Reads m t a) (s : Int) : Reads (m.orFail s) t a := by
  intro rest
  unfold In.orFail
  rw [h rest]

/-- A text of two parts that ends too early. -/
theorem Cut.bind {α β : Type} {m : In α} {k : α → In β} {t1 t2 : Bytes} {a : α} {P : Except Stop (β × Bytes) → Prop}
    (h1 : Reads m t1 a) (hc : Cut m t1 fun r => P (match r with | .ok (a, i) => k a i | .error e => .error e))
    (h2 : Cut (k a) t2 P) : Cut (m >>= k) (t1 ++ t2) P := by
  intro p hp hne
  rcases prefix_append_cases hp with h | ⟨q, rfl, hq⟩
  · by_cases he : p = t1
    · subst he
      rw [bind_ok (by simpa using h1 [])]
      exact h2 [] (List.nil_prefix) (fun e => hne (by rw [← e]; simp))
    · exact hc p h he
  · rw [bind_ok (h1 q)]
    exact h2 q hq (fun e => hne (by rw [e]))

theorem Cut.mono {α : Type} {m : In α} {t : Bytes} {P Q : Except Stop (α × Bytes) → Prop} (h : Cut m t P)
    (hPQ : ∀ r, P r → Q r) : Cut m t Q := fun p hp hne => hPQ _ (h p hp hne)

theorem Cut.nil {α : Type} (m : In α) (P : Except Stop (α × Bytes) → Prop) : Cut m [] P := fun _ hp hne =>
  absurd (List.prefix_nil.mp hp) hne

/-- A text that is followed by one more step, which takes no input. -/
theorem Cut.last {α β : Type} {m : In α} {k : α → In β} {t1 : Bytes} {a : α} {P : Except Stop (β × Bytes) → Prop}
    (h1 : Reads m t1 a) (hc : Cut m t1 fun r => P (match r with | .ok (a, i) => k a i | .error e => .error e)) :
    Cut (m >>= k) t1 P := by
  have := Cut.bind h1 hc (Cut.nil (k a) P)
  rwa [List.append_nil] at this

/-- A line. -/
theorem readLine_reads {size : Nat} {l : Bytes} (h : LineOk size l) : Reads (readLine size) (line l) l := by
  intro rest
  have hs := h.short
  unfold readLine line
  rw [List.append_assoc, List.singleton_append, fgets_line h.noNewline (by omega)]
  have hz : (0 : UInt8) ∉ l ++ [10] := by
    simp only [List.mem_append, not_or, List.mem_singleton]
    exact ⟨h.noZero, by decide⟩
  simp only [cstr_of hz]
  simp

theorem prefix_line {p l : Bytes} (hp : p <+: line l) (hne : p ≠ line l) : p <+: l := by
  unfold line at hp hne
  rcases List.prefix_concat_iff.mp hp with h | h
  · exact absurd h hne
  · exact h

theorem readLine_cut' {size : Nat} {l p : Bytes} (h : LineOk size l) (hp : p <+: l) :
    readLine size p = if p = [] then .error (.fail errRead) else .ok (p, []) := by
  have hs := h.short
  have h1 : 10 ∉ p := fun e => h.noNewline (hp.subset e)
  have h2 : 0 ∉ p := fun e => h.noZero (hp.subset e)
  have h3 := hp.length_le
  unfold readLine
  rw [fgets_eof h1 (by omega)]
  simp only [cstr_of h2]
  split
  · rfl
  · rw [if_neg]
    intro e
    exact h1 (List.mem_of_getLast? e)

/-- A line that ends too early. -/
theorem readLine_cut {size : Nat} {l : Bytes} (h : LineOk size l) :
    Cut (readLine size) (line l) fun r => r = .error (.fail errRead) ∨ ∃ p, p <+: l ∧ p ≠ [] ∧ r = .ok (p, []) := by
  intro p hp hne
  have hp := prefix_line hp hne
  rw [readLine_cut' h hp]
  split
  · exact Or.inl rfl
  · rename_i hp0
    exact Or.inr ⟨p, hp, hp0, rfl⟩

/-! ## Decimal numbers -/

theorem digit_ok (d : Nat) (h : d < 10) : isDigit (UInt8.ofNat (48 + d)) = true ∧ isSpace (UInt8.ofNat (48 + d)) = false ∧
    (UInt8.ofNat (48 + d)).toNat - 48 = d ∧ UInt8.ofNat (48 + d) ∉ ([0, 10, 43, 45] : Bytes) := by
  have : d = 0 ∨ d = 1 ∨ d = 2 ∨ d = 3 ∨ d = 4 ∨ d = 5 ∨ d = 6 ∨ d = 7 ∨ d = 8 ∨ d = 9 := by omega
  rcases this with rfl | rfl | rfl | rfl | rfl | rfl | rfl | rfl | rfl | rfl <;> decide

theorem digitsVal_append (a : Bytes) (b : UInt8) : digitsVal (a ++ [b]) = digitsVal a * 10 + (b.toNat - 48) := by
  unfold digitsVal
  rw [List.foldl_append]
  rfl

theorem decimal_val (n : Nat) : digitsVal (decimal n) = n := by
  induction n using Nat.strongRecOn with
  | _ n ih =>
    unfold decimal
    split
    · rename_i h
      unfold digitsVal
      simp only [List.foldl_cons, List.foldl_nil]
      rw [(digit_ok n h).2.2.1]
      omega
    · rw [digitsVal_append, ih (n / 10) (by omega), (digit_ok (n % 10) (by omega)).2.2.1]
      omega

theorem decimal_mem (n : Nat) : ∀ b ∈ decimal n, isDigit b = true ∧ isSpace b = false ∧ b ∉ ([0, 10, 43, 45] : Bytes) := by
  induction n using Nat.strongRecOn with
  | _ n ih =>
    unfold decimal
    split
    · rename_i h
      intro b hb
      rw [List.mem_singleton] at hb
      subst hb
      have := digit_ok n h
      exact ⟨this.1, this.2.1, this.2.2.2⟩
    · intro b hb
      rcases List.mem_append.mp hb with hb | hb
      · exact ih (n / 10) (by omega) b hb
      · rw [List.mem_singleton] at hb
        subst hb
        have := digit_ok (n % 10) (by omega)
        exact ⟨this.1, this.2.1, this.2.2.2⟩

theorem decimal_ne (n : Nat) : decimal n ≠ [] := by
  unfold decimal
  split <;> simp

theorem decimal_len (k n : Nat) (h : n < 10 ^ (k + 1)) : (decimal n).length ≤ k + 1 := by
  induction k generalizing n with
  | zero =>
    unfold decimal
    rw [if_pos (by simpa using h)]
    simp
  | succ k ih =>
    unfold decimal
    split
    · simp
    · rw [List.length_append]
      have := ih (n / 10) (by rw [Nat.pow_succ] at h; omega)
      simp
      omega

theorem decimal_prefix (n : Nat) : ∀ p, p <+: decimal n → p ≠ [] → digitsVal p ≤ n ∧ (0 < n → 0 < digitsVal p) := by
  induction n using Nat.strongRecOn with
  | _ n ih =>
    intro p hp hne
    by_cases h : n < 10
    · have hv := decimal_val n
      rw [decimal, if_pos h] at hp hv
      have : p = [UInt8.ofNat (48 + n)] := by
        rcases List.prefix_cons_iff.mp hp with h | ⟨t, ht, h⟩
        · exact absurd h hne
        · rw [List.prefix_nil.mp h] at ht; exact ht
      rw [this, hv]
      omega
    · have hv := decimal_val n
      rw [decimal, if_neg h] at hp hv
      rcases List.prefix_concat_iff.mp hp with he | hp
      · rw [he, hv]; omega
      · obtain ⟨h1, h2⟩ := ih (n / 10) (by omega) p hp hne
        exact ⟨by omega, fun _ => h2 (by omega)⟩

theorem scan_digits {s : Bytes} (hs : s ≠ []) (hm : ∀ b ∈ s, isDigit b = true ∧ isSpace b = false ∧ b ∉ ([0, 10, 43, 45] : Bytes))
    (hv : digitsVal s < 2 ^ 64) : scanU64 s = .ok (digitsVal s) := by
  obtain ⟨b, r, rfl⟩ : ∃ b r, s = b :: r := by
    cases s with
    | nil => exact absurd rfl hs
    | cons b r => exact ⟨b, r, rfl⟩
  have hb := hm b (by simp)
  unfold scanU64
  have h1 : (b :: r).dropWhile isSpace = b :: r := by
    rw [List.dropWhile_cons_of_neg]
    rw [hb.2.1]; decide
  have h2 : (b :: r).takeWhile isDigit = b :: r := by
    exact takeWhile_all fun x hx => (hm x hx).1
  rw [h1]
  have h3 : splitSign (b :: r) = (false, b :: r) := by
    unfold splitSign
    split
    · rename_i heq
      cases heq
      exact absurd (by decide) hb.2.2
    · rename_i heq
      cases heq
      exact absurd (by decide) hb.2.2
    · rfl
  simp only [h1, h3, h2]
  rw [if_neg (by simp), if_neg (by omega)]
  rfl

theorem decimal_line {size n : Nat} (h : n < 2 ^ 64) (hs : 24 ≤ size) : LineOk size (decimal n) := by
  refine ⟨fun e => (decimal_mem n _ e).2.2 (by decide), fun e => (decimal_mem n _ e).2.2 (by decide), ?_⟩
  have := decimal_len 19 n (Nat.lt_of_lt_of_le h (by decide))
  omega

theorem readInt_reads {size n : Nat} (h : n < 2 ^ 64) (hs : 24 ≤ size) : Reads (readInt size) (num n) n := by
  unfold readInt num
  refine (readLine_reads (decimal_line h hs)).last ?_
  intro rest
  show (match scanU64 (decimal n) with | .ok v => _ | .error e => _) = _
  rw [scan_digits (decimal_ne n) (decimal_mem n) (by rw [decimal_val]; exact h), decimal_val]
  rfl

/-- The shorter numbers that are read where the text ends too early. -/
theorem readInt_cut {size n : Nat} (h : n < 2 ^ 64) (hs : 24 ≤ size) : Cut (readInt size) (num n) fun r =>
    r = .error (.fail errRead) ∨ ∃ v, r = .ok (v, []) ∧ v ≤ n ∧ (0 < n → 0 < v) := by
  unfold readInt num
  refine Cut.last (readLine_reads (decimal_line h hs)) ((readLine_cut (decimal_line h hs)).mono ?_)
  rintro r (rfl | ⟨p, hp, hne, rfl⟩)
  · exact Or.inl rfl
  · obtain ⟨h1, h2⟩ := decimal_prefix n p hp hne
    right
    refine ⟨digitsVal p, ?_, h1, h2⟩
    show (match scanU64 p with | .ok v => _ | .error e => _) = _
    rw [scan_digits hne (fun b hb => decimal_mem n b (hp.subset hb)) (by omega)]

theorem toInt32_small {n : Nat} (h : n < 2 ^ 31) : toInt32 n = n := by
  unfold toInt32
  rw [Nat.mod_eq_of_lt (by omega), if_pos h]

end Couchstore.ViewTools
