import Verif.Lemmas.Collate

/-! Helper lemmas about comparing keys: the orders. -/

namespace Couchstore

variable {D : Type} [LinearOrder D]

/-- A comparison is transitive in all its forms, for three values. -/
def Trans3 {α : Type} (cmp : α → α → Int) (a b c : α) : Prop :=
  (cmp a b ≤ 0 → cmp b c ≤ 0 → cmp a c ≤ 0) ∧ (cmp a b < 0 → cmp b c ≤ 0 → cmp a c < 0) ∧ (cmp a b ≤ 0 → cmp b c < 0 → cmp a c < 0)

theorem CmpOk.transAt {α : Type} {cmp : α → α → Int} (H : CmpOk cmp) (a b c : α) : Trans3 cmp a b c := by
  have f1 := H.flip a b
  have f2 := H.flip b a
  have f3 := H.flip b c
  have f4 := H.flip c b
  have f5 := H.flip a c
  have f6 := H.flip c a
  have t1 := H.trans a b c
  have t2 := H.trans b c a
  have t3 := H.trans c a b
  refine ⟨t1, ?_, ?_⟩ <;> omega

theorem cmpInt_facts (a b : Int) : (a < b → cmpInt a b = -1) ∧ (a = b → cmpInt a b = 0) ∧ (b < a → cmpInt a b = 1) := by
  unfold cmpInt
  refine ⟨fun h => ?_, fun h => ?_, fun h => ?_⟩
  · rw [if_neg (by omega), if_pos h]
  · rw [if_neg (by omega), if_neg (by omega)]
  · rw [if_pos h]

theorem cmpInt_ok : CmpOk cmpInt := by
  refine ⟨fun a b => ?_, fun a b c => ?_⟩
  · have h1 := cmpInt_facts a b
    have h2 := cmpInt_facts b a
    rcases Int.lt_trichotomy a b with h | h | h <;> omega
  · have h1 := cmpInt_facts a b
    have h2 := cmpInt_facts b c
    have h3 := cmpInt_facts a c
    rcases Int.lt_trichotomy a b with h | h | h <;> rcases Int.lt_trichotomy b c with h' | h' | h' <;> omega

theorem cmpDouble_ok : CmpOk (cmpDouble : D → D → Int) := by
  have hf : ∀ a b : D, (a < b ∧ cmpDouble a b = -1) ∨ (a = b ∧ cmpDouble a b = 0) ∨ (b < a ∧ cmpDouble a b = 1) := by
    intro a b
    unfold cmpDouble
    rcases lt_trichotomy a b with h | h | h
    · exact .inl ⟨h, by rw [if_neg (not_lt_of_gt h), if_pos h]⟩
    · exact .inr (.inl ⟨h, by rw [h, if_neg (lt_irrefl _), if_neg (lt_irrefl _)]⟩)
    · exact .inr (.inr ⟨h, by rw [if_pos h]⟩)
  have hle : ∀ a b : D, cmpDouble a b ≤ 0 ↔ a ≤ b := by
    intro a b
    rcases hf a b with ⟨h, h'⟩ | ⟨h, h'⟩ | ⟨h, h'⟩
    · rw [h']; exact ⟨fun _ => le_of_lt h, fun _ => by decide⟩
    · rw [h']; exact ⟨fun _ => le_of_eq h, fun _ => by decide⟩
    · rw [h']; exact ⟨fun h => absurd h (by decide), fun h' => absurd h (not_lt_of_ge h')⟩
  refine ⟨fun a b => ?_, fun a b c h1 h2 => ?_⟩
  · have h1 : 0 < cmpDouble b a ↔ a < b := by
      rw [← Int.not_le, hle, not_le]
    rw [h1]
    rcases hf a b with ⟨h, h'⟩ | ⟨h, h'⟩ | ⟨h, h'⟩
    · rw [h']; exact ⟨fun _ => h, fun _ => by decide⟩
    · rw [h']; exact ⟨fun h => absurd h (by decide), fun h'' => absurd h (ne_of_lt h'')⟩
    · rw [h']; exact ⟨fun h => absurd h (by decide), fun h'' => absurd h (not_lt_of_gt h'')⟩
  · exact (hle a c).mpr (le_trans ((hle a b).mp h1) ((hle b c).mp h2))

theorem orderNumbers_ok (round : Rat → D) : CmpOk (orderNumbers round) :=
  ⟨fun _ _ => cmpDouble_ok.flip _ _, fun _ _ _ => cmpDouble_ok.trans _ _ _⟩

/-- First by one comparison, then by another. -/
theorem lex_flip {a a' b b' : Int} (h1 : a < 0 ↔ 0 < a') (h1' : a' < 0 ↔ 0 < a) (h2 : b < 0 ↔ 0 < b') :
    (if a ≠ 0 then a else b) < 0 ↔ 0 < (if a' ≠ 0 then a' else b') := by
  by_cases ha : a = 0
  · rw [if_neg (by simpa using ha), if_neg (by simp; omega)]
    exact h2
  · rw [if_pos ha, if_pos (by omega)]
    exact h1

theorem lex_trans {x y z x' y' z' : Int} (h : (x ≤ 0 → y ≤ 0 → z ≤ 0) ∧ (x < 0 → y ≤ 0 → z < 0) ∧ (x ≤ 0 → y < 0 → z < 0))
    (h' : (x' ≤ 0 → y' ≤ 0 → z' ≤ 0) ∧ (x' < 0 → y' ≤ 0 → z' < 0) ∧ (x' ≤ 0 → y' < 0 → z' < 0)) :
    ((if x ≠ 0 then x else x') ≤ 0 → (if y ≠ 0 then y else y') ≤ 0 → (if z ≠ 0 then z else z') ≤ 0) ∧
    ((if x ≠ 0 then x else x') < 0 → (if y ≠ 0 then y else y') ≤ 0 → (if z ≠ 0 then z else z') < 0) ∧
    ((if x ≠ 0 then x else x') ≤ 0 → (if y ≠ 0 then y else y') < 0 → (if z ≠ 0 then z else z') < 0) := by
  by_cases hx : x = 0 <;> by_cases hy : y = 0 <;> by_cases hz : z = 0 <;> simp only [hx, hy, hz, ne_eq, not_true_eq_false, not_false_eq_true, if_true, if_false] <;> omega

theorem orderBytes_flip (val : UInt8 → Int) : ∀ s t, orderBytes val s t < 0 ↔ 0 < orderBytes val t s
  | [], [] => by simp [orderBytes]
  | [], _ :: _ => by simp [orderBytes]
  | _ :: _, [] => by simp [orderBytes]
  | a :: s, b :: t => by
    simp only [orderBytes]
    exact lex_flip (cmpInt_ok.flip _ _) (cmpInt_ok.flip _ _) (orderBytes_flip val s t)

theorem orderBytes_trans (val : UInt8 → Int) : ∀ s t u, Trans3 (orderBytes val) s t u
  | [], t, u => by
    unfold Trans3
    cases t <;> cases u <;> simp [orderBytes]
  | a :: s, t, u => by
    unfold Trans3
    cases t with
    | nil => simp [orderBytes]
    | cons b t =>
      cases u with
      | nil => simp [orderBytes]
      | cons c u =>
        simp only [orderBytes]
        exact lex_trans (cmpInt_ok.transAt (val a) (val b) (val c)) (orderBytes_trans val s t u)

theorem orderBytes_ok (val : UInt8 → Int) : CmpOk (orderBytes val) :=
  ⟨orderBytes_flip val, fun a b c => (orderBytes_trans val a b c).1⟩

theorem sign_le (x : Int) : (x.sign ≤ 0 ↔ x ≤ 0) ∧ (x.sign < 0 ↔ x < 0) ∧ (0 < x.sign ↔ 0 < x) := by
  rcases Int.lt_trichotomy x 0 with h | h | h
  · rw [Int.sign_eq_neg_one_of_neg h]; omega
  · subst h; decide
  · rw [Int.sign_eq_one_of_pos h]; omega

/-- The order of texts: the empty one first, then by ICU. -/
def unicodeOrder (ucol : Bytes → Bytes → Int) (a b : Bytes) : Int :=
  match a, b with
  | [], [] => 0
  | [], _ => -1
  | _, [] => 1
  | a, b => (ucol a b).sign

theorem compareUnicode_eq {e : CollateEnv D} {round : Rat → D} {ucol : Bytes → Bytes → Int} (H : e.Ok round ucol) (a b : Bytes) :
    compareUnicode e a b = unicodeOrder ucol a b := by
  unfold compareUnicode unicodeOrder
  cases a <;> cases b <;> simp [H.strcoll, H.strcollIter]

theorem unicodeOrder_ok {ucol : Bytes → Bytes → Int} (H : CmpOk ucol) : CmpOk (unicodeOrder ucol) := by
  constructor
  · intro a b
    cases a <;> cases b <;> simp only [unicodeOrder]
    case cons.cons =>
      rw [(sign_le _).2.1, (sign_le _).2.2]
      exact H.flip _ _
    all_goals decide
  · intro a b c
    cases a <;> cases b <;> cases c <;> simp only [unicodeOrder]
    case cons.cons.cons =>
      rw [(sign_le _).1, (sign_le _).1, (sign_le _).1]
      exact H.trans _ _ _
    all_goals (intros; first | decide | contradiction)

theorem codeStrings_ok {e : CollateEnv D} {round : Rat → D} {ucol : Bytes → Bytes → Int} (H : e.Ok round ucol) (mode : CollateMode) :
    CmpOk (codeStrings e mode) := by
  unfold codeStrings
  by_cases h : mode = .unicode
  · simp only [if_pos h, compareUnicode_eq H]
    exact ⟨fun _ _ => (unicodeOrder_ok H.ucol_ok).flip _ _, fun _ _ _ => (unicodeOrder_ok H.ucol_ok).trans _ _ _⟩
  · simp only [if_neg h]
    exact ⟨fun _ _ => (orderBytes_ok _).flip _ _, fun _ _ _ => (orderBytes_ok _).trans _ _ _⟩

section

variable {mode : CollateMode} {num : Rat → Rat → Int} {str : List StrItem → List StrItem → Int}

theorem rank_eq {v w : Json} : v.rank mode = w.rank mode ↔ v.vtype = w.vtype := by
  cases mode <;> cases v <;> cases w <;> simp [Json.rank, Json.vtype]

theorem orderJson_rank {v w : Json} (h : v.rank mode ≠ w.rank mode) : orderJson mode num str v w = cmpInt (v.rank mode) (w.rank mode) := by
  have h' : v.vtype ≠ w.vtype := fun h' => h (rank_eq.mpr h')
  cases v <;> cases w <;> first | rfl | exact absurd rfl h'

mutual
theorem json_flip (hn : CmpOk num) (hs : CmpOk str) : ∀ v w : Json, orderJson mode num str v w < 0 ↔ 0 < orderJson mode num str w v
  | v, w => by
    by_cases h : v.rank mode = w.rank mode
    · match v, w, rank_eq.mp h with
      | .null, .null, _ => simp [orderJson, cmpInt]
      | .false, .false, _ => simp [orderJson, cmpInt]
      | .true, .true, _ => simp [orderJson, cmpInt]
      | .number _ x _, .number _ y _, _ => simp only [orderJson]; exact hn.flip _ _
      | .string x, .string y, _ => simp only [orderJson]; exact hs.flip _ _
      | .array a, .array b, _ => simp only [orderJson]; exact elements_flip hn hs a b
      | .object a, .object b, _ => simp only [orderJson]; exact members_flip hn hs a b
    · rw [orderJson_rank h, orderJson_rank (fun h' => h h'.symm)]
      exact cmpInt_ok.flip _ _
theorem elements_flip (hn : CmpOk num) (hs : CmpOk str) : ∀ a b : Elements, orderElements mode num str a b < 0 ↔ 0 < orderElements mode num str b a
  | .nil, .nil => by simp [orderElements]
  | .nil, .cons _ _ => by simp [orderElements]
  | .cons _ _, .nil => by simp [orderElements]
  | .cons v a, .cons w b => by
    simp only [orderElements]
    have h1 := json_flip hn hs v w
    have h2 : orderJson mode num str w v < 0 ↔ 0 < orderJson mode num str v w := json_flip' hn hs v w
    exact lex_flip h1 h2 (elements_flip hn hs a b)
theorem members_flip (hn : CmpOk num) (hs : CmpOk str) : ∀ a b : Members, orderMembers mode num str a b < 0 ↔ 0 < orderMembers mode num str b a
  | .nil, .nil => by simp [orderMembers]
  | .nil, .cons _ _ _ => by simp [orderMembers]
  | .cons _ _ _, .nil => by simp [orderMembers]
  | .cons k v a, .cons l w b => by
    simp only [orderMembers]
    have h1 := json_flip hn hs v w
    have h2 : orderJson mode num str w v < 0 ↔ 0 < orderJson mode num str v w := json_flip' hn hs v w
    exact lex_flip (hs.flip _ _) (hs.flip _ _) (lex_flip h1 h2 (members_flip hn hs a b))
theorem json_flip' (hn : CmpOk num) (hs : CmpOk str) : ∀ v w : Json, orderJson mode num str w v < 0 ↔ 0 < orderJson mode num str v w
  | v, w => by
    by_cases h : v.rank mode = w.rank mode
    · match v, w, rank_eq.mp h with
      | .null, .null, _ => simp [orderJson, cmpInt]
      | .false, .false, _ => simp [orderJson, cmpInt]
      | .true, .true, _ => simp [orderJson, cmpInt]
      | .number _ x _, .number _ y _, _ => simp only [orderJson]; exact hn.flip _ _
      | .string x, .string y, _ => simp only [orderJson]; exact hs.flip _ _
      | .array a, .array b, _ => simp only [orderJson]; exact elements_flip' hn hs a b
      | .object a, .object b, _ => simp only [orderJson]; exact members_flip' hn hs a b
    · rw [orderJson_rank h, orderJson_rank (fun h' => h h'.symm)]
      exact cmpInt_ok.flip _ _
theorem elements_flip' (hn : CmpOk num) (hs : CmpOk str) : ∀ a b : Elements, orderElements mode num str b a < 0 ↔ 0 < orderElements mode num str a b
  | .nil, .nil => by simp [orderElements]
  | .nil, .cons _ _ => by simp [orderElements]
  | .cons _ _, .nil => by simp [orderElements]
  | .cons v a, .cons w b => by
    simp only [orderElements]
    exact lex_flip (json_flip' hn hs v w) (json_flip hn hs v w) (elements_flip' hn hs a b)
theorem members_flip' (hn : CmpOk num) (hs : CmpOk str) : ∀ a b : Members, orderMembers mode num str b a < 0 ↔ 0 < orderMembers mode num str a b
  | .nil, .nil => by simp [orderMembers]
  | .nil, .cons _ _ _ => by simp [orderMembers]
  | .cons _ _ _, .nil => by simp [orderMembers]
  | .cons k v a, .cons l w b => by
    simp only [orderMembers]
    exact lex_flip (hs.flip _ _) (hs.flip _ _) (lex_flip (json_flip' hn hs v w) (json_flip hn hs v w) (members_flip' hn hs a b))
end

mutual
theorem json_trans (hn : CmpOk num) (hs : CmpOk str) : ∀ v w u : Json, Trans3 (orderJson mode num str) v w u
  | v, w, u => by
    unfold Trans3
    by_cases h : v.rank mode = w.rank mode ∧ w.rank mode = u.rank mode
    · match v, w, rank_eq.mp h.1, u, rank_eq.mp h.2 with
      | .null, .null, _, .null, _ => simp [orderJson, cmpInt]
      | .false, .false, _, .false, _ => simp [orderJson, cmpInt]
      | .true, .true, _, .true, _ => simp [orderJson, cmpInt]
      | .number _ x _, .number _ y _, _, .number _ z _, _ => simp only [orderJson]; exact hn.transAt _ _ _
      | .string x, .string y, _, .string z, _ => simp only [orderJson]; exact hs.transAt _ _ _
      | .array a, .array b, _, .array c, _ => simp only [orderJson]; exact elements_trans hn hs a b c
      | .object a, .object b, _, .object c, _ => simp only [orderJson]; exact members_trans hn hs a b c
    · have key : ∀ v w : Json, (v.rank mode < w.rank mode → orderJson mode num str v w = -1) ∧ (w.rank mode < v.rank mode → orderJson mode num str v w = 1) := by
        intro v w
        refine ⟨fun h => ?_, fun h => ?_⟩
        · rw [orderJson_rank (by omega)]; exact (cmpInt_facts _ _).1 h
        · rw [orderJson_rank (by omega)]; exact (cmpInt_facts _ _).2.2 h
      have k1 := key v w
      have k2 := key w u
      have k3 := key v u
      omega
theorem elements_trans (hn : CmpOk num) (hs : CmpOk str) : ∀ a b c : Elements, Trans3 (orderElements mode num str) a b c
  | .nil, b, c => by
    unfold Trans3
    cases b <;> cases c <;> simp [orderElements]
  | .cons v a, b, c => by
    unfold Trans3
    cases b with
    | nil => simp [orderElements]
    | cons w b =>
      cases c with
      | nil => simp [orderElements]
      | cons u c =>
        simp only [orderElements]
        exact lex_trans (json_trans hn hs v w u) (elements_trans hn hs a b c)
theorem members_trans (hn : CmpOk num) (hs : CmpOk str) : ∀ a b c : Members, Trans3 (orderMembers mode num str) a b c
  | .nil, b, c => by
    unfold Trans3
    cases b <;> cases c <;> simp [orderMembers]
  | .cons k v a, b, c => by
    unfold Trans3
    cases b with
    | nil => simp [orderMembers]
    | cons l w b =>
      cases c with
      | nil => simp [orderMembers]
      | cons m u c =>
        simp only [orderMembers]
        exact lex_trans (hs.transAt k l m) (lex_trans (json_trans hn hs v w u) (members_trans hn hs a b c))
end

theorem orderJson_ok (hn : CmpOk num) (hs : CmpOk str) : CmpOk (orderJson mode num str) :=
  ⟨json_flip hn hs, fun a b c => (json_trans hn hs a b c).1⟩

/-! ## The meaning of strings -/

mutual
theorem json_congr {P : List StrItem → Prop} {str' : List StrItem → List StrItem → Int} (h : ∀ s t, P s → P t → str s t = str' s t) :
    ∀ v w : Json, v.Strings P → w.Strings P → orderJson mode num str v w = orderJson mode num str' v w
  | v, w, hv, hw => by
    by_cases hr : v.rank mode = w.rank mode
    · match v, w, rank_eq.mp hr, hv, hw with
      | .null, .null, _, _, _ => rfl
      | .false, .false, _, _, _ => rfl
      | .true, .true, _, _, _ => rfl
      | .number _ x _, .number _ y _, _, _, _ => rw [orderJson, orderJson]
      | .string x, .string y, _, hv, hw => rw [orderJson, orderJson]; rw [Json.Strings] at hv hw; exact h x y hv hw
      | .array a, .array b, _, hv, hw => rw [orderJson, orderJson]; rw [Json.Strings] at hv hw; exact elements_congr h a b hv hw
      | .object a, .object b, _, hv, hw => rw [orderJson, orderJson]; rw [Json.Strings] at hv hw; exact members_congr h a b hv hw
    · rw [orderJson_rank hr, orderJson_rank hr]
theorem elements_congr {P : List StrItem → Prop} {str' : List StrItem → List StrItem → Int} (h : ∀ s t, P s → P t → str s t = str' s t) :
    ∀ v w : Elements, v.Strings P → w.Strings P → orderElements mode num str v w = orderElements mode num str' v w
  | .nil, .nil, _, _ => rfl
  | .nil, .cons _ _, _, _ => rfl
  | .cons _ _, .nil, _, _ => rfl
  | .cons v a, .cons w b, hv, hw => by
    rw [Elements.Strings] at hv hw
    simp only [orderElements]
    rw [json_congr h v w hv.1 hw.1, elements_congr h a b hv.2 hw.2]
theorem members_congr {P : List StrItem → Prop} {str' : List StrItem → List StrItem → Int} (h : ∀ s t, P s → P t → str s t = str' s t) :
    ∀ v w : Members, v.Strings P → w.Strings P → orderMembers mode num str v w = orderMembers mode num str' v w
  | .nil, .nil, _, _ => rfl
  | .nil, .cons _ _ _, _, _ => rfl
  | .cons _ _ _, .nil, _, _ => rfl
  | .cons k v a, .cons l w b, hv, hw => by
    rw [Members.Strings] at hv hw
    simp only [orderMembers]
    rw [h k l hv.1 hw.1, json_congr h v w hv.2.1 hw.2.1, members_congr h a b hv.2.2 hw.2.2]
end

end

theorem item_code {i : StrItem} {c : UInt8} (h : i ≠ .esc .f) (hc : i.meaning = some c) : i.code = c := by
  cases i with
  | plain x hx => exact Option.some.inj hc
  | esc e =>
    cases e <;> first | exact absurd rfl h | exact Option.some.inj hc
  | uni a b x d =>
    simp only [StrItem.meaning] at hc
    split at hc
    · exact Option.some.inj hc
    · cases hc

theorem strCode_meaning {signed : Bool} {mode : CollateMode} : ∀ {s : List StrItem}, Supported signed mode s →
    strCode s = strMeaning s ∧ (mode = .unicode ∨ ∀ c ∈ strMeaning s, charVal signed c = c.toNat)
  | [], _ => ⟨rfl, .inr (by intro c hc; cases hc)⟩
  | i :: s, h => by
    obtain ⟨h1, h2⟩ := strCode_meaning (fun j hj => h j (List.mem_cons_of_mem _ hj))
    obtain ⟨g1, c, g2, g3⟩ := h i List.mem_cons_self
    refine ⟨?_, ?_⟩
    · unfold strCode strMeaning at *
      rw [List.map_cons, List.filterMap_cons, g2, item_code g1 g2, h1]
    · rcases g3 with g3 | g3
      · exact .inl g3
      · rcases h2 with h2 | h2
        · exact .inl h2
        · right
          intro x hx
          unfold strMeaning at hx
          rw [List.filterMap_cons, g2] at hx
          rcases List.mem_cons.mp hx with rfl | hx
          · unfold charVal
            rcases g3 with g3 | g3
            · rw [g3, if_neg (by simp)]
            · rw [if_neg (by omega)]
          · exact h2 x hx

theorem orderBytes_congr {val val' : UInt8 → Int} : ∀ s t : Bytes, (∀ c ∈ s, val c = val' c) → (∀ c ∈ t, val c = val' c) →
    orderBytes val s t = orderBytes val' s t
  | [], [], _, _ => rfl
  | [], _ :: _, _, _ => rfl
  | _ :: _, [], _, _ => rfl
  | a :: s, b :: t, h1, h2 => by
    simp only [orderBytes]
    rw [h1 a List.mem_cons_self, h2 b List.mem_cons_self, orderBytes_congr s t (fun c hc => h1 c (List.mem_cons_of_mem _ hc)) (fun c hc => h2 c (List.mem_cons_of_mem _ hc))]

theorem codeStrings_meaning {e : CollateEnv D} {round : Rat → D} {ucol : Bytes → Bytes → Int} (H : e.Ok round ucol) {mode : CollateMode}
    {s t : List StrItem} (hs : Supported e.charSigned mode s) (ht : Supported e.charSigned mode t) : codeStrings e mode s t = orderStrings mode ucol s t := by
  obtain ⟨h1, h2⟩ := strCode_meaning hs
  obtain ⟨g1, g2⟩ := strCode_meaning ht
  unfold codeStrings orderStrings
  rw [h1, g1]
  split
  · rw [compareUnicode_eq H]
    rfl
  · rename_i hm
    exact orderBytes_congr _ _ (h2.resolve_left hm) (g2.resolve_left hm)

end Couchstore
