import Verif.Lemmas.Dbck
import Verif.Props.Recover
import Verif.Props.Replay

/-! A damaged file with two commits, and what the recovery tool makes of it: the samples for C65.  The handles are
written out, so that the kernel can evaluate one step after the other. -/

namespace Couchstore.Props

open Couchstore

variable {υ : Type}

theorem readSkipLoop_prefix (fuel pos len : Nat) (acc : Bytes) (f : File) (r : Bytes × Nat) (g : File)
    (h : readSkipLoop fuel pos len acc f = .ok r g) : acc <+: r.1 := by
  induction fuel generalizing pos len acc f with
  | zero =>
    cases len with
    | zero => cases h; exact List.prefix_refl _
    | succ n => cases h
  | succ fuel ih =>
    cases len with
    | zero => cases h; exact List.prefix_refl _
    | succ n =>
      have h : (pread pos (min (blockSize - pos % blockSize) (n + 1)) >>= fun got =>
        if got = [] then throw .read else
          readSkipLoop fuel (if (pos + got.length) % blockSize = 0 then pos + got.length + 1 else pos + got.length)
            (n + 1 - got.length) (acc ++ got)) f = .ok r g := h
      cases hp : pread pos (min (blockSize - pos % blockSize) (n + 1)) f with
      | error e d => rw [bind_error hp] at h; cases h
      | ok got d =>
        rw [bind_ok hp] at h
        split at h
        · cases h
        · exact (List.prefix_append ..).trans (ih _ _ _ _ h)

/-- What is read starts with the byte at the position. -/
theorem readSkip_head (pos n : Nat) (f : File) (hf : f.faults = []) (r : Bytes × Nat) (g : File)
    (h : readSkip pos (n + 1) f = .ok r g) :
    ∃ x l, r.1 = x :: l ∧ f.disk[if pos % blockSize = 0 then pos + 1 else pos]? = some x := by
  unfold readSkip at h
  generalize (if pos % blockSize = 0 then pos + 1 else pos) = q at h ⊢
  have hpr : pread q (min (blockSize - q % blockSize) (n + 1)) f =
      .ok (slice f.disk q (min (blockSize - q % blockSize) (n + 1))) f := by
    obtain ⟨disk, p, cfg, faults, log⟩ := f
    cases hf
    rfl
  have h : (pread q (min (blockSize - q % blockSize) (n + 1)) >>= fun got =>
    if got = [] then throw .read else
      readSkipLoop n (if (q + got.length) % blockSize = 0 then q + got.length + 1 else q + got.length)
        (n + 1 - got.length) ([] ++ got)) f = .ok r g := h
  rw [bind_ok hpr] at h
  split at h
  · cases h
  rename_i hne
  have hp := readSkipLoop_prefix _ _ _ _ _ _ _ h
  rw [List.nil_append] at hp
  unfold slice at hp hne
  have hmin : min (blockSize - q % blockSize) (n + 1) ≠ 0 := by
    have : q % blockSize < blockSize := Nat.mod_lt _ (by decide)
    omega
  obtain ⟨m, hm⟩ := Nat.exists_eq_succ_of_ne_zero hmin
  rw [hm] at hp hne
  cases hd : f.disk.drop q with
  | nil => rw [hd] at hne; simp at hne
  | cons x l =>
    rw [hd, List.take_succ_cons] at hp
    obtain ⟨t, ht⟩ := hp
    refine ⟨x, l.take m ++ t, by rw [← ht]; rfl, ?_⟩
    have := congrArg List.head? hd
    rw [List.head?_drop] at this
    exact this

/-- A chunk starts with a byte whose highest bit is set. -/
theorem preadBin_high (E : Env) (p : Nat) (f : File) (hf : f.faults = []) (hc : f.cfg.cipher = none) (b : Bytes) (g : File)
    (h : preadBin E p f = .ok b g) :
    ∃ x : UInt8, f.disk[if p % blockSize = 0 then p + 1 else p]? = some x ∧ 128 ≤ x := by
  have h : (match f.cfg.cipher with | some k => preadEncrypted E k p | none => preadPlain E p) f = .ok b g := h
  rw [hc] at h
  have h : (readSkip p 8 >>= fun r =>
    if beDec (r.1.take 4) < 2 ^ 31 then throw .corrupt else do
      let (buf, _) ← readSkip r.2 (beDec (r.1.take 4) % 2 ^ 31)
      if integrityCheck E buf (beDec (r.1.drop 4)) f.cfg.crcMode then pure buf else throw .checksumFail) f = .ok b g := h
  cases hr : readSkip p 8 f with
  | error e d => rw [bind_error hr] at h; cases h
  | ok r d =>
    rw [bind_ok hr] at h
    obtain ⟨x, l, h1, h2⟩ := readSkip_head p 7 f hf r d hr
    refine ⟨x, h2, ?_⟩
    by_contra hx
    have hx : x.toNat < 128 := by
      have := UInt8.not_le.mp hx
      exact this
    rw [if_pos ?_] at h
    · cases h
    · rw [h1, List.take_succ_cons, beDec_cons]
      have k1 := beDec_lt (l.take 3)
      have k2 : (l.take 3).length ≤ 3 := by simp; omega
      have k3 : 256 ^ (l.take 3).length ≤ 256 ^ 3 := Nat.pow_le_pow_right (by decide) k2
      have k4 : x.toNat * 256 ^ (l.take 3).length ≤ 127 * 256 ^ 3 := Nat.mul_le_mul (by omega) k3
      have k5 : 127 * 256 ^ 3 + 256 ^ 3 = 2 ^ 31 := by decide
      omega

/-- The positions at which a chunk may start. -/
def starts (f : File) : List Nat :=
  (f.disk.zipIdx.filter fun x => decide (128 ≤ x.1)).flatMap fun x =>
    if x.2 % blockSize = 1 then [x.2, x.2 - 1] else [x.2]

theorem mem_starts {E : Env} {p : Nat} {f : File} (hf : f.faults = []) (hc : f.cfg.cipher = none) {b : Bytes} {g : File}
    (h : preadBin E p f = .ok b g) : p ∈ starts f := by
  obtain ⟨x, h1, h2⟩ := preadBin_high E p f hf hc b g h
  unfold starts
  refine List.mem_flatMap.mpr ⟨(x, if p % blockSize = 0 then p + 1 else p), ?_, ?_⟩
  · refine List.mem_filter.mpr ⟨?_, by simpa using h2⟩
    rw [List.mem_zipIdx_iff_getElem?]
    exact h1
  · dsimp only
    split
    · rename_i h
      rw [if_pos (by rw [Nat.add_mod, h]; rfl)]
      simp
    · split <;> simp

/-- Whether chunks and headers read as before or not at all. -/
def noticedAt (a b : File) (l : List Nat) : Bool :=
  l.all fun p =>
    match preadBin Env.toy p a, preadBin Env.toy p b with
    | .ok x _, .ok y _ => y == x
    | _, _ => true

def headersAt (a b : File) (l : List Nat) : Bool :=
  l.all fun i =>
    match preadHeader Env.toy (i * blockSize) maxDbHeaderSize b with
    | .ok x _ =>
      (match preadHeader Env.toy (i * blockSize) maxDbHeaderSize a with | .ok y _ => y == x | _ => false) &&
        decide (a.disk[i * blockSize]? = some btHeader)
    | _ => true

def fitsIn (dbs : List Db) (l : List Bytes) : Bool :=
  let docs := dbs.map fun db => (documents Env.toy db).map fun d => (d.id, d.dbSeq, storedBodyOf Env.toy db d.id)
  docs.flatten.all fun d => l.contains d.1 && (match d.2.2 with | some b => decide (8 + b.length + Env.toy.macSize < 2 ^ 28) | none => true) &&
    docs.flatten.all fun d' => !(d.2.1 == d'.2.1) || d.1 == d'.1

theorem damagedFile_of {a b : File} (hc : b.cfg = a.cfg) (hl : b.disk.length = a.disk.length) (ha : a.faults = [])
    (hb : b.faults = []) (hk : a.cfg.cipher = none) (h : noticedAt a b (starts a) = true) : DamagedFile Env.toy a b := by
  refine ⟨hc, hl, hb, ?_⟩
  intro p x y g g' h1 h2
  have ha' : ({ a with faults := [] } : File) = a := by rw [← ha]
  rw [ha'] at h1
  have := List.all_eq_true.mp h p (mem_starts ha hk h1)
  rw [h1, h2] at this
  simpa using this

theorem damagedHeaders_of {a b : File} {n : Nat} (ha : a.faults = []) (hn : b.disk.length ≤ n * blockSize)
    (h : headersAt a b (List.range n) = true) : DamagedHeaders Env.toy a b := by
  intro p x g hp h1 h2
  have ha' : ({ a with faults := [] } : File) = a := by rw [← ha]
  rw [ha']
  have hlt : p < b.disk.length := by
    rcases Nat.lt_or_ge p b.disk.length with h | h
    · exact h
    · rw [List.getElem?_eq_none h] at h1; cases h1
  have hpe : p / blockSize * blockSize = p := Nat.div_mul_cancel (Nat.dvd_of_mod_eq_zero hp)
  have hi : p / blockSize < n := by
    have h3 : p / blockSize * blockSize < n * blockSize := by omega
    exact Nat.lt_of_mul_lt_mul_right h3
  have := List.all_eq_true.mp h _ (List.mem_range.mpr hi)
  rw [hpe, h2] at this
  dsimp only at this
  cases h3 : preadHeader Env.toy p maxDbHeaderSize a with
  | error e d => rw [h3] at this; simp at this
  | ok y d =>
    rw [h3] at this
    simp only [Bool.and_eq_true, beq_iff_eq, decide_eq_true_eq] at this
    exact ⟨this.2, d, by rw [this.1]⟩

theorem fits_of {s : Sys} {l : List Bytes} (hl : l.length < 2 ^ 40) (h : fitsIn s.states l = true) : StaleFits Env.toy s := by
  have h : ∀ db ∈ s.states, ∀ d ∈ documents Env.toy db, (l.contains d.id = true ∧
      (match storedBodyOf Env.toy db d.id with | some b => decide (8 + b.length + Env.toy.macSize < 2 ^ 28) | none => true) = true) ∧
      ∀ db' ∈ s.states, ∀ d' ∈ documents Env.toy db', (d.dbSeq ≠ d'.dbSeq ∨ d.id = d'.id) := by
    intro db hdb d hd
    have hmem : ∀ db ∈ s.states, ∀ d ∈ documents Env.toy db, (d.id, d.dbSeq, storedBodyOf Env.toy db d.id) ∈
        (s.states.map fun db => (documents Env.toy db).map fun d => (d.id, d.dbSeq, storedBodyOf Env.toy db d.id)).flatten := by
      intro db hdb d hd
      exact List.mem_flatten.mpr ⟨_, List.mem_map.mpr ⟨db, hdb, rfl⟩, List.mem_map.mpr ⟨d, hd, rfl⟩⟩
    have h1 := List.all_eq_true.mp h _ (hmem db hdb d hd)
    simp only [Bool.and_eq_true] at h1
    refine ⟨h1.1, ?_⟩
    intro db' hdb' d' hd'
    have h2 := List.all_eq_true.mp h1.2 _ (hmem db' hdb' d' hd')
    simpa [Bool.or_eq_true, bne_iff_ne] using h2
  refine ⟨⟨l, hl, ?_⟩, ?_, ?_⟩
  · intro db hdb d hd
    simpa using (h db hdb d hd).1.1
  · intro db hdb db' hdb' d hd d' hd' hs
    exact ((h db hdb d hd).2 db' hdb' d' hd').resolve_left (fun hn => hn hs)
  · intro db hdb d hd b hb
    have := (h db hdb d hd).1.2
    rw [hb] at this
    simpa using this

/-- A handle of the file with some bytes changed. -/
def harmed (db : Db) (is : List Nat) : Db :=
  { db with file := { db.file with disk := is.foldl (fun d i => d.modify i (· + 1)) db.file.disk } }

theorem harmed_length (db : Db) (is : List Nat) : (harmed db is).file.disk.length = db.file.disk.length := by
  unfold harmed
  show (is.foldl _ db.file.disk).length = _
  generalize db.file.disk = d
  induction is generalizing d with
  | nil => rfl
  | cons i is ih => rw [List.foldl_cons, ih, List.length_modify]

def staleRecovery (db : Db) (is : List Nat) : Compaction Nat := { sampleCompaction false none with source := harmed db is }

/-- What has to be computed for the sample to meet the assumptions. -/
def isHarmed (db : Db) (is : List Nat) : Bool :=
  let a := db.file
  let b := (harmed db is).file
  decide (a.faults = []) && decide (a.cfg.cipher = none) && noticedAt a b (starts a) &&
    headersAt a b (List.range (a.disk.length / blockSize + 1))


/-! ### Two commits -/

def zeros16 (l : Bytes) : Bytes := 0 :: 0 :: 0 :: 0 :: 0 :: 0 :: 0 :: 0 :: 0 :: 0 :: 0 :: 0 :: 0 :: 0 :: 0 :: 0 :: l
def zeros256 (l : Bytes) : Bytes :=
  zeros16 (zeros16 (zeros16 (zeros16 (zeros16 (zeros16 (zeros16 (zeros16 (zeros16 (zeros16 (zeros16 (zeros16 (zeros16 (zeros16 (zeros16 (zeros16 l)))))))))))))))

/-- Two documents are saved and committed; then one is deleted, one changed and one added. -/
def bItems1 : List SaveItem := [sampleItem [97] (some [1]) 0, sampleItem [98] (some [2, 3]) 0]
def bItems2 : List SaveItem :=
  [⟨none, ⟨[97], 0, 2, [8], true, 0, 0, 0⟩, 5⟩, sampleItem [98] (some [5, 6, 7]) 0, sampleItem [99] (some [9]) 0]
def bdb1 : Db := after (saveDocuments Env.toy sampleOpts (some sampleCb) bItems1 []) kdb0
def bdb2 : Db :=
  ⟨⟨[0, 128, 0, 0, 1, 0, 0, 17, 18, 1, 128, 0, 0, 2, 0, 17, 37, 22, 2, 3, 128, 0, 0, 62, 144, 106, 176, 97, 7,
  1, 0, 16, 0, 0, 24, 97, 0, 0, 0, 0, 0, 1, 0, 0, 0, 9, 0, 0, 0, 0, 0, 1, 0, 0, 0, 0, 0, 1, 0, 9, 0, 16, 0, 0,
  24, 98, 0, 0, 0, 0, 0, 2, 0, 0, 0, 10, 0, 0, 0, 0, 0, 10, 0, 0, 0, 0, 0, 1, 0, 9, 128, 0, 0, 64, 175, 36, 104,
  25, 7, 1, 0, 96, 0, 0, 20, 0, 0, 0, 0, 0, 1, 0, 16, 0, 0, 9, 0, 0, 0, 0, 0, 1, 0, 0, 0, 0, 0, 1, 0, 97, 9, 0,
  96, 0, 0, 20, 0, 0, 0, 0, 0, 2, 0, 16, 0, 0, 10, 0, 0, 0, 0, 0, 10, 0, 0, 0, 0, 0, 1, 0, 98, 9] ++ (zeros256
  (zeros256 (zeros256 (zeros256 (zeros256 (zeros256 (zeros256 (zeros256 (zeros256 (zeros256 (zeros256 (zeros256
  (zeros256 (zeros256 (zeros256 (zeros16 (zeros16 (zeros16 (zeros16 (zeros16 (0 :: 0 :: 0 :: 0 :: 0 :: 0 :: 0 ::
  0 :: 0 :: 0 :: 0 :: 0 :: 0 :: 0 :: ([1, 0, 0, 0, 88, 117, 156, 128, 76, 14, 0, 0, 0, 0, 0, 2, 0, 0, 0, 0, 0,
  0, 0, 0, 0, 0, 0, 0, 0, 17, 0, 28, 0, 0, 0, 0, 0, 0, 0, 0, 3, 232, 0, 0, 0, 0, 0, 0, 0, 0, 0, 0, 0, 90, 0, 0,
  0, 0, 0, 72, 0, 0, 0, 0, 2, 0, 0, 0, 0, 0, 20, 0, 0, 0, 0, 0, 70, 0, 0, 0, 0, 2, 0, 0, 0, 0, 0, 0, 0, 0, 0, 0,
  19])))))))))))))))))))))), 4189, ⟨.crc32c, none, 64, 64⟩, [], [.sync, .write 4096 ([1]), .sync, .write 4105
  ([14, 0, 0, 0, 0, 0, 2, 0, 0, 0, 0, 0, 0, 0, 0, 0, 0, 0, 0, 0, 17, 0, 28, 0, 0, 0, 0, 0, 0, 0, 0, 3, 232, 0,
  0, 0, 0, 0, 0, 0, 0, 0, 0, 0, 90, 0, 0, 0, 0, 0, 72, 0, 0, 0, 0, 2, 0, 0, 0, 0, 0, 20, 0, 0, 0, 0, 0, 70, 0,
  0, 0, 0, 2, 0, 0, 0, 0, 0, 0, 0, 0, 0, 0, 19]), .write 4096 ([0, 0, 0, 0, 88, 117, 156, 128, 76]), .write 98
  ([7, 1, 0, 96, 0, 0, 20, 0, 0, 0, 0, 0, 1, 0, 16, 0, 0, 9, 0, 0, 0, 0, 0, 1, 0, 0, 0, 0, 0, 1, 0, 97, 9, 0,
  96, 0, 0, 20, 0, 0, 0, 0, 0, 2, 0, 16, 0, 0, 10, 0, 0, 0, 0, 0, 10, 0, 0, 0, 0, 0, 1, 0, 98, 9]), .write 90
  ([128, 0, 0, 64, 175, 36, 104, 25]), .write 28 ([7, 1, 0, 16, 0, 0, 24, 97, 0, 0, 0, 0, 0, 1, 0, 0, 0, 9, 0,
  0, 0, 0, 0, 1, 0, 0, 0, 0, 0, 1, 0, 9, 0, 16, 0, 0, 24, 98, 0, 0, 0, 0, 0, 2, 0, 0, 0, 10, 0, 0, 0, 0, 0, 10,
  0, 0, 0, 0, 0, 1, 0, 9]), .write 20 ([128, 0, 0, 62, 144, 106, 176, 97]), .write 18 ([2, 3]), .write 10 ([128,
  0, 0, 2, 0, 17, 37, 22]), .write 9 ([1]), .write 1 ([128, 0, 0, 1, 0, 0, 17, 18]), .write 0 ([0])]⟩, ⟨14, 2,
  some ⟨[98], 20, [0, 0, 0, 0, 2, 0, 0, 0, 0, 0, 0, 0, 0, 0, 0, 19], 70⟩, some ⟨[0, 0, 0, 0, 0, 2], 90, [0, 0,
  0, 0, 2], 72⟩, none, 0, 0, 4096, 1000, 0, false⟩, false, false⟩
def bdb3 : Db :=
  ⟨⟨[0, 128, 0, 0, 1, 0, 0, 17, 18, 1, 128, 0, 0, 2, 0, 17, 37, 22, 2, 3, 128, 0, 0, 62, 144, 106, 176, 97, 7,
  1, 0, 16, 0, 0, 24, 97, 0, 0, 0, 0, 0, 1, 0, 0, 0, 9, 0, 0, 0, 0, 0, 1, 0, 0, 0, 0, 0, 1, 0, 9, 0, 16, 0, 0,
  24, 98, 0, 0, 0, 0, 0, 2, 0, 0, 0, 10, 0, 0, 0, 0, 0, 10, 0, 0, 0, 0, 0, 1, 0, 9, 128, 0, 0, 64, 175, 36, 104,
  25, 7, 1, 0, 96, 0, 0, 20, 0, 0, 0, 0, 0, 1, 0, 16, 0, 0, 9, 0, 0, 0, 0, 0, 1, 0, 0, 0, 0, 0, 1, 0, 97, 9, 0,
  96, 0, 0, 20, 0, 0, 0, 0, 0, 2, 0, 16, 0, 0, 10, 0, 0, 0, 0, 0, 10, 0, 0, 0, 0, 0, 1, 0, 98, 9] ++ (zeros256
  (zeros256 (zeros256 (zeros256 (zeros256 (zeros256 (zeros256 (zeros256 (zeros256 (zeros256 (zeros256 (zeros256
  (zeros256 (zeros256 (zeros256 (zeros16 (zeros16 (zeros16 (zeros16 (zeros16 (0 :: 0 :: 0 :: 0 :: 0 :: 0 :: 0 ::
  0 :: 0 :: 0 :: 0 :: 0 :: 0 :: 0 :: ([1, 0, 0, 0, 88, 117, 156, 128, 76, 14, 0, 0, 0, 0, 0, 2, 0, 0, 0, 0, 0,
  0, 0, 0, 0, 0, 0, 0, 0, 17, 0, 28, 0, 0, 0, 0, 0, 0, 0, 0, 3, 232, 0, 0, 0, 0, 0, 0, 0, 0, 0, 0, 0, 90, 0, 0,
  0, 0, 0, 72, 0, 0, 0, 0, 2, 0, 0, 0, 0, 0, 20, 0, 0, 0, 0, 0, 70, 0, 0, 0, 0, 2, 0, 0, 0, 0, 0, 0, 0, 0, 0, 0,
  19, 128, 0, 0, 3, 17, 58, 71, 35, 5, 6, 7, 128, 0, 0, 1, 0, 0, 17, 26, 9, 128, 0, 0, 92, 11, 250, 155, 90, 7,
  1, 0, 16, 0, 0, 24, 97, 0, 0, 0, 0, 0, 3, 0, 0, 0, 0, 128, 0, 0, 0, 0, 0, 0, 0, 0, 0, 0, 2, 0, 8, 0, 16, 0, 0,
  24, 98, 0, 0, 0, 0, 0, 4, 0, 0, 0, 11, 0, 0, 0, 0, 16, 93, 0, 0, 0, 0, 0, 1, 0, 9, 0, 16, 0, 0, 24, 99, 0, 0,
  0, 0, 0, 5, 0, 0, 0, 9, 0, 0, 0, 0, 16, 104, 0, 0, 0, 0, 0, 1, 0, 9, 128, 0, 0, 95, 2, 49, 71, 110, 7, 1, 0,
  96, 0, 0, 20, 0, 0, 0, 0, 0, 3, 0, 16, 0, 0, 0, 128, 0, 0, 0, 0, 0, 0, 0, 0, 0, 0, 2, 0, 97, 8, 0, 96, 0, 0,
  20, 0, 0, 0, 0, 0, 4, 0, 16, 0, 0, 11, 0, 0, 0, 0, 16, 93, 0, 0, 0, 0, 0, 1, 0, 98, 9, 0, 96, 0, 0, 20, 0, 0,
  0, 0, 0, 5, 0, 16, 0, 0, 9, 0, 0, 0, 0, 16, 104, 0, 0, 0, 0, 0, 1, 0, 99, 9])))))))))))))))))))))), 4412,
  ⟨.crc32c, none, 64, 64⟩, [], [.write 4317 ([7, 1, 0, 96, 0, 0, 20, 0, 0, 0, 0, 0, 3, 0, 16, 0, 0, 0, 128, 0,
  0, 0, 0, 0, 0, 0, 0, 0, 0, 2, 0, 97, 8, 0, 96, 0, 0, 20, 0, 0, 0, 0, 0, 4, 0, 16, 0, 0, 11, 0, 0, 0, 0, 16,
  93, 0, 0, 0, 0, 0, 1, 0, 98, 9, 0, 96, 0, 0, 20, 0, 0, 0, 0, 0, 5, 0, 16, 0, 0, 9, 0, 0, 0, 0, 16, 104, 0, 0,
  0, 0, 0, 1, 0, 99, 9]), .write 4309 ([128, 0, 0, 95, 2, 49, 71, 110]), .write 4217 ([7, 1, 0, 16, 0, 0, 24,
  97, 0, 0, 0, 0, 0, 3, 0, 0, 0, 0, 128, 0, 0, 0, 0, 0, 0, 0, 0, 0, 0, 2, 0, 8, 0, 16, 0, 0, 24, 98, 0, 0, 0, 0,
  0, 4, 0, 0, 0, 11, 0, 0, 0, 0, 16, 93, 0, 0, 0, 0, 0, 1, 0, 9, 0, 16, 0, 0, 24, 99, 0, 0, 0, 0, 0, 5, 0, 0, 0,
  9, 0, 0, 0, 0, 16, 104, 0, 0, 0, 0, 0, 1, 0, 9]), .write 4209 ([128, 0, 0, 92, 11, 250, 155, 90]), .write 4208
  ([9]), .write 4200 ([128, 0, 0, 1, 0, 0, 17, 26]), .write 4197 ([5, 6, 7]), .write 4189 ([128, 0, 0, 3, 17,
  58, 71, 35]), .sync, .write 4096 ([1]), .sync, .write 4105 ([14, 0, 0, 0, 0, 0, 2, 0, 0, 0, 0, 0, 0, 0, 0, 0,
  0, 0, 0, 0, 17, 0, 28, 0, 0, 0, 0, 0, 0, 0, 0, 3, 232, 0, 0, 0, 0, 0, 0, 0, 0, 0, 0, 0, 90, 0, 0, 0, 0, 0, 72,
  0, 0, 0, 0, 2, 0, 0, 0, 0, 0, 20, 0, 0, 0, 0, 0, 70, 0, 0, 0, 0, 2, 0, 0, 0, 0, 0, 0, 0, 0, 0, 0, 19]), .write
  4096 ([0, 0, 0, 0, 88, 117, 156, 128, 76]), .write 98 ([7, 1, 0, 96, 0, 0, 20, 0, 0, 0, 0, 0, 1, 0, 16, 0, 0,
  9, 0, 0, 0, 0, 0, 1, 0, 0, 0, 0, 0, 1, 0, 97, 9, 0, 96, 0, 0, 20, 0, 0, 0, 0, 0, 2, 0, 16, 0, 0, 10, 0, 0, 0,
  0, 0, 10, 0, 0, 0, 0, 0, 1, 0, 98, 9]), .write 90 ([128, 0, 0, 64, 175, 36, 104, 25]), .write 28 ([7, 1, 0,
  16, 0, 0, 24, 97, 0, 0, 0, 0, 0, 1, 0, 0, 0, 9, 0, 0, 0, 0, 0, 1, 0, 0, 0, 0, 0, 1, 0, 9, 0, 16, 0, 0, 24, 98,
  0, 0, 0, 0, 0, 2, 0, 0, 0, 10, 0, 0, 0, 0, 0, 10, 0, 0, 0, 0, 0, 1, 0, 9]), .write 20 ([128, 0, 0, 62, 144,
  106, 176, 97]), .write 18 ([2, 3]), .write 10 ([128, 0, 0, 2, 0, 17, 37, 22]), .write 9 ([1]), .write 1 ([128,
  0, 0, 1, 0, 0, 17, 18]), .write 0 ([0])]⟩, ⟨14, 5, some ⟨[99], 4209, [0, 0, 0, 0, 2, 0, 0, 0, 0, 1, 0, 0, 0,
  0, 0, 20], 100⟩, some ⟨[0, 0, 0, 0, 0, 5], 4309, [0, 0, 0, 0, 3], 103⟩, none, 0, 0, 4096, 1000, 0, false⟩,
  false, false⟩
def bdb4 : Db :=
  ⟨⟨[0, 128, 0, 0, 1, 0, 0, 17, 18, 1, 128, 0, 0, 2, 0, 17, 37, 22, 2, 3, 128, 0, 0, 62, 144, 106, 176, 97, 7,
  1, 0, 16, 0, 0, 24, 97, 0, 0, 0, 0, 0, 1, 0, 0, 0, 9, 0, 0, 0, 0, 0, 1, 0, 0, 0, 0, 0, 1, 0, 9, 0, 16, 0, 0,
  24, 98, 0, 0, 0, 0, 0, 2, 0, 0, 0, 10, 0, 0, 0, 0, 0, 10, 0, 0, 0, 0, 0, 1, 0, 9, 128, 0, 0, 64, 175, 36, 104,
  25, 7, 1, 0, 96, 0, 0, 20, 0, 0, 0, 0, 0, 1, 0, 16, 0, 0, 9, 0, 0, 0, 0, 0, 1, 0, 0, 0, 0, 0, 1, 0, 97, 9, 0,
  96, 0, 0, 20, 0, 0, 0, 0, 0, 2, 0, 16, 0, 0, 10, 0, 0, 0, 0, 0, 10, 0, 0, 0, 0, 0, 1, 0, 98, 9] ++ (zeros256
  (zeros256 (zeros256 (zeros256 (zeros256 (zeros256 (zeros256 (zeros256 (zeros256 (zeros256 (zeros256 (zeros256
  (zeros256 (zeros256 (zeros256 (zeros16 (zeros16 (zeros16 (zeros16 (zeros16 (0 :: 0 :: 0 :: 0 :: 0 :: 0 :: 0 ::
  0 :: 0 :: 0 :: 0 :: 0 :: 0 :: 0 :: ([1, 0, 0, 0, 88, 117, 156, 128, 76, 14, 0, 0, 0, 0, 0, 2, 0, 0, 0, 0, 0,
  0, 0, 0, 0, 0, 0, 0, 0, 17, 0, 28, 0, 0, 0, 0, 0, 0, 0, 0, 3, 232, 0, 0, 0, 0, 0, 0, 0, 0, 0, 0, 0, 90, 0, 0,
  0, 0, 0, 72, 0, 0, 0, 0, 2, 0, 0, 0, 0, 0, 20, 0, 0, 0, 0, 0, 70, 0, 0, 0, 0, 2, 0, 0, 0, 0, 0, 0, 0, 0, 0, 0,
  19, 128, 0, 0, 3, 17, 58, 71, 35, 5, 6, 7, 128, 0, 0, 1, 0, 0, 17, 26, 9, 128, 0, 0, 92, 11, 250, 155, 90, 7,
  1, 0, 16, 0, 0, 24, 97, 0, 0, 0, 0, 0, 3, 0, 0, 0, 0, 128, 0, 0, 0, 0, 0, 0, 0, 0, 0, 0, 2, 0, 8, 0, 16, 0, 0,
  24, 98, 0, 0, 0, 0, 0, 4, 0, 0, 0, 11, 0, 0, 0, 0, 16, 93, 0, 0, 0, 0, 0, 1, 0, 9, 0, 16, 0, 0, 24, 99, 0, 0,
  0, 0, 0, 5, 0, 0, 0, 9, 0, 0, 0, 0, 16, 104, 0, 0, 0, 0, 0, 1, 0, 9, 128, 0, 0, 95, 2, 49, 71, 110, 7, 1, 0,
  96, 0, 0, 20, 0, 0, 0, 0, 0, 3, 0, 16, 0, 0, 0, 128, 0, 0, 0, 0, 0, 0, 0, 0, 0, 0, 2, 0, 97, 8, 0, 96, 0, 0,
  20, 0, 0, 0, 0, 0, 4, 0, 16, 0, 0, 11, 0, 0, 0, 0, 16, 93, 0, 0, 0, 0, 0, 1, 0, 98, 9, 0, 96, 0, 0, 20, 0, 0,
  0, 0, 0, 5, 0, 16, 0, 0, 9, 0, 0, 0, 0, 16, 104, 0, 0, 0, 0, 0, 1, 0, 99, 9] ++ (zeros256 (zeros256 (zeros256
  (zeros256 (zeros256 (zeros256 (zeros256 (zeros256 (zeros256 (zeros256 (zeros256 (zeros256 (zeros256 (zeros256
  (zeros16 (zeros16 (zeros16 (zeros16 (zeros16 (zeros16 (zeros16 (zeros16 (zeros16 (zeros16 (zeros16 (zeros16 (0
  :: 0 :: 0 :: 0 :: ([1, 0, 0, 0, 88, 104, 107, 43, 147, 14, 0, 0, 0, 0, 0, 5, 0, 0, 0, 0, 0, 0, 0, 0, 0, 0, 0,
  0, 0, 17, 0, 28, 0, 0, 0, 0, 0, 0, 0, 0, 7, 208, 0, 0, 0, 0, 32, 0, 0, 0, 0, 0, 16, 213, 0, 0, 0, 0, 0, 103,
  0, 0, 0, 0, 3, 0, 0, 0, 0, 16, 113, 0, 0, 0, 0, 0, 100, 0, 0, 0, 0, 2, 0, 0, 0, 0, 1, 0, 0, 0, 0, 0,
  20])))))))))))))))))))))))))))))))))))))))))))))))))), 8285, ⟨.crc32c, none, 64, 64⟩, [], [.sync, .write 8192
  ([1]), .sync, .write 8201 ([14, 0, 0, 0, 0, 0, 5, 0, 0, 0, 0, 0, 0, 0, 0, 0, 0, 0, 0, 0, 17, 0, 28, 0, 0, 0,
  0, 0, 0, 0, 0, 7, 208, 0, 0, 0, 0, 32, 0, 0, 0, 0, 0, 16, 213, 0, 0, 0, 0, 0, 103, 0, 0, 0, 0, 3, 0, 0, 0, 0,
  16, 113, 0, 0, 0, 0, 0, 100, 0, 0, 0, 0, 2, 0, 0, 0, 0, 1, 0, 0, 0, 0, 0, 20]), .write 8192 ([0, 0, 0, 0, 88,
  104, 107, 43, 147]), .write 4317 ([7, 1, 0, 96, 0, 0, 20, 0, 0, 0, 0, 0, 3, 0, 16, 0, 0, 0, 128, 0, 0, 0, 0,
  0, 0, 0, 0, 0, 0, 2, 0, 97, 8, 0, 96, 0, 0, 20, 0, 0, 0, 0, 0, 4, 0, 16, 0, 0, 11, 0, 0, 0, 0, 16, 93, 0, 0,
  0, 0, 0, 1, 0, 98, 9, 0, 96, 0, 0, 20, 0, 0, 0, 0, 0, 5, 0, 16, 0, 0, 9, 0, 0, 0, 0, 16, 104, 0, 0, 0, 0, 0,
  1, 0, 99, 9]), .write 4309 ([128, 0, 0, 95, 2, 49, 71, 110]), .write 4217 ([7, 1, 0, 16, 0, 0, 24, 97, 0, 0,
  0, 0, 0, 3, 0, 0, 0, 0, 128, 0, 0, 0, 0, 0, 0, 0, 0, 0, 0, 2, 0, 8, 0, 16, 0, 0, 24, 98, 0, 0, 0, 0, 0, 4, 0,
  0, 0, 11, 0, 0, 0, 0, 16, 93, 0, 0, 0, 0, 0, 1, 0, 9, 0, 16, 0, 0, 24, 99, 0, 0, 0, 0, 0, 5, 0, 0, 0, 9, 0, 0,
  0, 0, 16, 104, 0, 0, 0, 0, 0, 1, 0, 9]), .write 4209 ([128, 0, 0, 92, 11, 250, 155, 90]), .write 4208 ([9]),
  .write 4200 ([128, 0, 0, 1, 0, 0, 17, 26]), .write 4197 ([5, 6, 7]), .write 4189 ([128, 0, 0, 3, 17, 58, 71,
  35]), .sync, .write 4096 ([1]), .sync, .write 4105 ([14, 0, 0, 0, 0, 0, 2, 0, 0, 0, 0, 0, 0, 0, 0, 0, 0, 0, 0,
  0, 17, 0, 28, 0, 0, 0, 0, 0, 0, 0, 0, 3, 232, 0, 0, 0, 0, 0, 0, 0, 0, 0, 0, 0, 90, 0, 0, 0, 0, 0, 72, 0, 0, 0,
  0, 2, 0, 0, 0, 0, 0, 20, 0, 0, 0, 0, 0, 70, 0, 0, 0, 0, 2, 0, 0, 0, 0, 0, 0, 0, 0, 0, 0, 19]), .write 4096
  ([0, 0, 0, 0, 88, 117, 156, 128, 76]), .write 98 ([7, 1, 0, 96, 0, 0, 20, 0, 0, 0, 0, 0, 1, 0, 16, 0, 0, 9, 0,
  0, 0, 0, 0, 1, 0, 0, 0, 0, 0, 1, 0, 97, 9, 0, 96, 0, 0, 20, 0, 0, 0, 0, 0, 2, 0, 16, 0, 0, 10, 0, 0, 0, 0, 0,
  10, 0, 0, 0, 0, 0, 1, 0, 98, 9]), .write 90 ([128, 0, 0, 64, 175, 36, 104, 25]), .write 28 ([7, 1, 0, 16, 0,
  0, 24, 97, 0, 0, 0, 0, 0, 1, 0, 0, 0, 9, 0, 0, 0, 0, 0, 1, 0, 0, 0, 0, 0, 1, 0, 9, 0, 16, 0, 0, 24, 98, 0, 0,
  0, 0, 0, 2, 0, 0, 0, 10, 0, 0, 0, 0, 0, 10, 0, 0, 0, 0, 0, 1, 0, 9]), .write 20 ([128, 0, 0, 62, 144, 106,
  176, 97]), .write 18 ([2, 3]), .write 10 ([128, 0, 0, 2, 0, 17, 37, 22]), .write 9 ([1]), .write 1 ([128, 0,
  0, 1, 0, 0, 17, 18]), .write 0 ([0])]⟩, ⟨14, 5, some ⟨[99], 4209, [0, 0, 0, 0, 2, 0, 0, 0, 0, 1, 0, 0, 0, 0,
  0, 20], 100⟩, some ⟨[0, 0, 0, 0, 0, 5], 4309, [0, 0, 0, 0, 3], 103⟩, none, 0, 0, 8192, 2000, 4096, false⟩,
  false, false⟩

/-- Equality of handles, for evaluation. -/
def sameBytes : Bytes → Bytes → Bool
  | [], [] => true
  | x :: a, y :: b => if x = y then sameBytes a b else false
  | _, _ => false

def sameEvent : Event → Event → Bool
  | .write p a, .write q b => decide (p = q) && sameBytes a b
  | .sync, .sync => true
  | _, _ => false

def sameLog : List Event → List Event → Bool
  | [], [] => true
  | x :: a, y :: b => if sameEvent x y then sameLog a b else false
  | _, _ => false

def sameDb (a b : Db) : Bool :=
  decide (a.file.pos = b.file.pos) && decide (a.file.cfg = b.file.cfg) && decide (a.file.faults = b.file.faults) &&
    decide (a.header = b.header) && decide (a.dropped = b.dropped) && decide (a.readOnly = b.readOnly) &&
    sameBytes a.file.disk b.file.disk && sameLog a.file.log b.file.log

theorem sameBytes_eq : ∀ {a b : Bytes}, sameBytes a b = true → a = b
  | [], [], _ => rfl
  | x :: a, y :: b, h => by
    unfold sameBytes at h
    split at h
    · rename_i hx
      rw [hx, sameBytes_eq h]
    · cases h
  | [], _ :: _, h => nomatch h
  | _ :: _, [], h => nomatch h

theorem sameEvent_eq {a b : Event} (h : sameEvent a b = true) : a = b := by
  cases a <;> cases b <;> simp only [sameEvent, Bool.and_eq_true, decide_eq_true_eq, Bool.false_eq_true] at h
  · rw [h.1, sameBytes_eq h.2]
  · rfl

theorem sameLog_eq : ∀ {a b : List Event}, sameLog a b = true → a = b
  | [], [], _ => rfl
  | x :: a, y :: b, h => by
    unfold sameLog at h
    split at h
    · rename_i hx
      rw [sameEvent_eq hx, sameLog_eq h]
    · cases h
  | [], _ :: _, h => nomatch h
  | _ :: _, [], h => nomatch h

theorem sameDb_eq {a b : Db} (h : sameDb a b = true) : a = b := by
  obtain ⟨⟨d, p, c, f, l⟩, h1, h2, h3⟩ := a
  obtain ⟨⟨d', p', c', f', l'⟩, h1', h2', h3'⟩ := b
  simp only [sameDb, Bool.and_eq_true, decide_eq_true_eq] at h
  obtain ⟨⟨⟨⟨⟨⟨⟨rfl, rfl⟩, rfl⟩, rfl⟩, rfl⟩, rfl⟩, k1⟩, k2⟩ := h
  rw [sameBytes_eq k1, sameLog_eq k2]

/-- The handle is what the operation leaves. -/
def leaves {α : Type} (r : EStateM.Result Err Db α) (db : Db) : Bool :=
  match r with
  | .ok _ d => sameDb d db
  | .error _ _ => false

theorem after_of {α : Type} {m : DbM α} {d db : Db} (h : leaves (m d) db = true) : after m d = db := by
  unfold after
  cases hm : m d with
  | ok a x => rw [hm] at h; exact sameDb_eq h
  | error e x => rw [hm] at h; cases h

theorem leaves_commit {E : Env} {ts : Nat} {cb : Nat → Bool} {d db : Db} (h : leaves (commit E ts cb d) db = true) :
    commit E ts cb d = .ok () db := by
  cases hm : commit E ts cb d with
  | ok a x =>
    rw [hm] at h
    rw [sameDb_eq h]
  | error e x => rw [hm] at h; cases h

theorem bdb1_args : argsB Env.toy kdb0 sampleOpts bItems1 = true := by decide +kernel
theorem bdb2_eq : leaves (commit Env.toy 1000 (fun _ => false) bdb1) bdb2 = true := by decide +kernel
theorem bdb3_args : argsB Env.toy bdb2 sampleOpts bItems2 = true := by decide +kernel
theorem bdb3_eq : leaves (saveDocuments Env.toy sampleOpts (some sampleCb) bItems2 [] bdb2) bdb3 = true := by decide +kernel
theorem bdb4_eq : leaves (commit Env.toy 2000 (fun _ => false) bdb3) bdb4 = true := by decide +kernel

theorem steps_one {E : Env} {a b : Db} (h : Step E a b) : Steps E a b := .step .refl h

theorem twoCommits_made {E : Env} (L : E.Laws) {flags : OpenFlags} {ctx : Bytes} {d0 d1 d2 d3 d4 : Db} (ht : 2 ≤ flags.kvThr)
    (hn : flags.noCommitAtCreate = true)
    (h0 : openDb E flags none ctx (crashedFile [] []) = .ok d0 d0.file) (h1 : Step E d0 d1)
    (h2 : commit E 1000 (fun _ => false) d1 = .ok () d2) (h3 : Step E d2 d3)
    (h4 : commit E 2000 (fun _ => false) d3 = .ok () d4) : History E none (twoCommits d0 d1 d2 d3 d4) :=
  .op (.op (oneCommit_same L ht hn h0 (.step .refl h1) h2).1 (.step h3)) (.commitOk 2000 _ h4)

attribute [local irreducible] bdb2 bdb3 bdb4 in
theorem bdbHist : History Env.toy none (twoCommits kdb0 bdb1 bdb2 bdb3 bdb4) :=
  twoCommits_made Env.toy_laws (flags := sourceFlags) (by decide) rfl kdb0_eq
    (.save sampleOpts (some sampleCb) bItems1 [] (args_of bdb1_args)) (leaves_commit bdb2_eq)
    (after_of bdb3_eq ▸ .save sampleOpts (some sampleCb) bItems2 [] (args_of bdb3_args)) (leaves_commit bdb4_eq)

/-! ### The tool, step by step -/

theorem dbck_steps {E : Env} {c : Compaction υ} {flags : OpenFlags} {ts n : Nat} {t o d f : Db} {e : Err} {f' : File}
    (h1 : recover E c = .ok (t, some e)) (h2 : openDb E flags c.getKey c.ctx { t.file with faults := [] } = .ok o f')
    (h3 : staleLoop E c.source (c.source.header.position + 1) c.source ⟨o, 0, false⟩ = ⟨d, n, false⟩) (hn : n ≠ 0)
    (h4 : commit E ts (fun _ => false) d = .ok () f) : dbck E c flags true ts = .ok (f, n) := by
  unfold dbck
  rw [h1]
  dsimp only
  rw [h2]
  dsimp only
  rw [if_pos (by simp)]
  unfold addStale rewindAndGetStaleData
  rw [h3]
  dsimp only
  rw [if_neg (by simp), if_neg hn, h4]

def recovers (r : Except Err (Db × Option Err)) (db : Db) : Bool :=
  match r with
  | .ok (t, some .checksumFail) => sameDb t db
  | _ => false

theorem recovers_eq {r : Except Err (Db × Option Err)} {db : Db} (h : recovers r db = true) :
    r = .ok (db, some .checksumFail) := by
  rcases r with e | ⟨t, _ | e⟩
  · cases h
  · cases h
  · cases e <;> first | (rw [sameDb_eq h]) | cases h

def opens (r : EStateM.Result Err File Db) (db : Db) : Bool :=
  match r with
  | .ok t _ => sameDb t db
  | _ => false

theorem opens_eq {r : EStateM.Result Err File Db} {db : Db} (h : opens r db = true) : ∃ f, r = .ok db f := by
  cases r with
  | ok t f => exact ⟨f, by rw [sameDb_eq h]⟩
  | error e f => cases h

def finds (st : StaleSt) (db : Db) (n : Nat) : Bool := sameDb st.dst db && decide (st.count = n) && !st.limit

theorem finds_eq {st : StaleSt} {db : Db} {n : Nat} (h : finds st db n = true) : st = ⟨db, n, false⟩ := by
  obtain ⟨d, m, l⟩ := st
  simp only [finds, Bool.and_eq_true, decide_eq_true_eq, Bool.not_eq_true'] at h
  rw [sameDb_eq h.1.1, h.1.2, h.2]

def sampleStale (db : Db) : Compaction Nat := { sampleCompaction false none with source := db }

/-! ### The changed document's new body is damaged -/

def bdbA : Db :=
  ⟨⟨[0, 128, 0, 0, 1, 0, 0, 17, 18, 1, 128, 0, 0, 2, 0, 17, 37, 22, 2, 3, 128, 0, 0, 62, 144, 106, 176, 97, 7,
  1, 0, 16, 0, 0, 24, 97, 0, 0, 0, 0, 0, 1, 0, 0, 0, 9, 0, 0, 0, 0, 0, 1, 0, 0, 0, 0, 0, 1, 0, 9, 0, 16, 0, 0,
  24, 98, 0, 0, 0, 0, 0, 2, 0, 0, 0, 10, 0, 0, 0, 0, 0, 10, 0, 0, 0, 0, 0, 1, 0, 9, 128, 0, 0, 64, 175, 36, 104,
  25, 7, 1, 0, 96, 0, 0, 20, 0, 0, 0, 0, 0, 1, 0, 16, 0, 0, 9, 0, 0, 0, 0, 0, 1, 0, 0, 0, 0, 0, 1, 0, 97, 9, 0,
  96, 0, 0, 20, 0, 0, 0, 0, 0, 2, 0, 16, 0, 0, 10, 0, 0, 0, 0, 0, 10, 0, 0, 0, 0, 0, 1, 0, 98, 9] ++ (zeros256
  (zeros256 (zeros256 (zeros256 (zeros256 (zeros256 (zeros256 (zeros256 (zeros256 (zeros256 (zeros256 (zeros256
  (zeros256 (zeros256 (zeros256 (zeros16 (zeros16 (zeros16 (zeros16 (zeros16 (0 :: 0 :: 0 :: 0 :: 0 :: 0 :: 0 ::
  0 :: 0 :: 0 :: 0 :: 0 :: 0 :: 0 :: ([1, 0, 0, 0, 88, 117, 156, 128, 76, 14, 0, 0, 0, 0, 0, 2, 0, 0, 0, 0, 0,
  0, 0, 0, 0, 0, 0, 0, 0, 17, 0, 28, 0, 0, 0, 0, 0, 0, 0, 0, 3, 232, 0, 0, 0, 0, 0, 0, 0, 0, 0, 0, 0, 90, 0, 0,
  0, 0, 0, 72, 0, 0, 0, 0, 2, 0, 0, 0, 0, 0, 20, 0, 0, 0, 0, 0, 70, 0, 0, 0, 0, 2, 0, 0, 0, 0, 0, 0, 0, 0, 0, 0,
  19, 128, 0, 0, 3, 17, 58, 71, 35, 6, 6, 7, 128, 0, 0, 1, 0, 0, 17, 26, 9, 128, 0, 0, 92, 11, 250, 155, 90, 7,
  1, 0, 16, 0, 0, 24, 97, 0, 0, 0, 0, 0, 3, 0, 0, 0, 0, 128, 0, 0, 0, 0, 0, 0, 0, 0, 0, 0, 2, 0, 8, 0, 16, 0, 0,
  24, 98, 0, 0, 0, 0, 0, 4, 0, 0, 0, 11, 0, 0, 0, 0, 16, 93, 0, 0, 0, 0, 0, 1, 0, 9, 0, 16, 0, 0, 24, 99, 0, 0,
  0, 0, 0, 5, 0, 0, 0, 9, 0, 0, 0, 0, 16, 104, 0, 0, 0, 0, 0, 1, 0, 9, 128, 0, 0, 95, 2, 49, 71, 110, 7, 1, 0,
  96, 0, 0, 20, 0, 0, 0, 0, 0, 3, 0, 16, 0, 0, 0, 128, 0, 0, 0, 0, 0, 0, 0, 0, 0, 0, 2, 0, 97, 8, 0, 96, 0, 0,
  20, 0, 0, 0, 0, 0, 4, 0, 16, 0, 0, 11, 0, 0, 0, 0, 16, 93, 0, 0, 0, 0, 0, 1, 0, 98, 9, 0, 96, 0, 0, 20, 0, 0,
  0, 0, 0, 5, 0, 16, 0, 0, 9, 0, 0, 0, 0, 16, 104, 0, 0, 0, 0, 0, 1, 0, 99, 9] ++ (zeros256 (zeros256 (zeros256
  (zeros256 (zeros256 (zeros256 (zeros256 (zeros256 (zeros256 (zeros256 (zeros256 (zeros256 (zeros256 (zeros256
  (zeros16 (zeros16 (zeros16 (zeros16 (zeros16 (zeros16 (zeros16 (zeros16 (zeros16 (zeros16 (zeros16 (zeros16 (0
  :: 0 :: 0 :: 0 :: ([1, 0, 0, 0, 88, 104, 107, 43, 147, 14, 0, 0, 0, 0, 0, 5, 0, 0, 0, 0, 0, 0, 0, 0, 0, 0, 0,
  0, 0, 17, 0, 28, 0, 0, 0, 0, 0, 0, 0, 0, 7, 208, 0, 0, 0, 0, 32, 0, 0, 0, 0, 0, 16, 213, 0, 0, 0, 0, 0, 103,
  0, 0, 0, 0, 3, 0, 0, 0, 0, 16, 113, 0, 0, 0, 0, 0, 100, 0, 0, 0, 0, 2, 0, 0, 0, 0, 1, 0, 0, 0, 0, 0,
  20])))))))))))))))))))))))))))))))))))))))))))))))))), 8285, ⟨.crc32c, none, 64, 64⟩, [], [.sync, .write 8192
  ([1]), .sync, .write 8201 ([14, 0, 0, 0, 0, 0, 5, 0, 0, 0, 0, 0, 0, 0, 0, 0, 0, 0, 0, 0, 17, 0, 28, 0, 0, 0,
  0, 0, 0, 0, 0, 7, 208, 0, 0, 0, 0, 32, 0, 0, 0, 0, 0, 16, 213, 0, 0, 0, 0, 0, 103, 0, 0, 0, 0, 3, 0, 0, 0, 0,
  16, 113, 0, 0, 0, 0, 0, 100, 0, 0, 0, 0, 2, 0, 0, 0, 0, 1, 0, 0, 0, 0, 0, 20]), .write 8192 ([0, 0, 0, 0, 88,
  104, 107, 43, 147]), .write 4317 ([7, 1, 0, 96, 0, 0, 20, 0, 0, 0, 0, 0, 3, 0, 16, 0, 0, 0, 128, 0, 0, 0, 0,
  0, 0, 0, 0, 0, 0, 2, 0, 97, 8, 0, 96, 0, 0, 20, 0, 0, 0, 0, 0, 4, 0, 16, 0, 0, 11, 0, 0, 0, 0, 16, 93, 0, 0,
  0, 0, 0, 1, 0, 98, 9, 0, 96, 0, 0, 20, 0, 0, 0, 0, 0, 5, 0, 16, 0, 0, 9, 0, 0, 0, 0, 16, 104, 0, 0, 0, 0, 0,
  1, 0, 99, 9]), .write 4309 ([128, 0, 0, 95, 2, 49, 71, 110]), .write 4217 ([7, 1, 0, 16, 0, 0, 24, 97, 0, 0,
  0, 0, 0, 3, 0, 0, 0, 0, 128, 0, 0, 0, 0, 0, 0, 0, 0, 0, 0, 2, 0, 8, 0, 16, 0, 0, 24, 98, 0, 0, 0, 0, 0, 4, 0,
  0, 0, 11, 0, 0, 0, 0, 16, 93, 0, 0, 0, 0, 0, 1, 0, 9, 0, 16, 0, 0, 24, 99, 0, 0, 0, 0, 0, 5, 0, 0, 0, 9, 0, 0,
  0, 0, 16, 104, 0, 0, 0, 0, 0, 1, 0, 9]), .write 4209 ([128, 0, 0, 92, 11, 250, 155, 90]), .write 4208 ([9]),
  .write 4200 ([128, 0, 0, 1, 0, 0, 17, 26]), .write 4197 ([5, 6, 7]), .write 4189 ([128, 0, 0, 3, 17, 58, 71,
  35]), .sync, .write 4096 ([1]), .sync, .write 4105 ([14, 0, 0, 0, 0, 0, 2, 0, 0, 0, 0, 0, 0, 0, 0, 0, 0, 0, 0,
  0, 17, 0, 28, 0, 0, 0, 0, 0, 0, 0, 0, 3, 232, 0, 0, 0, 0, 0, 0, 0, 0, 0, 0, 0, 90, 0, 0, 0, 0, 0, 72, 0, 0, 0,
  0, 2, 0, 0, 0, 0, 0, 20, 0, 0, 0, 0, 0, 70, 0, 0, 0, 0, 2, 0, 0, 0, 0, 0, 0, 0, 0, 0, 0, 19]), .write 4096
  ([0, 0, 0, 0, 88, 117, 156, 128, 76]), .write 98 ([7, 1, 0, 96, 0, 0, 20, 0, 0, 0, 0, 0, 1, 0, 16, 0, 0, 9, 0,
  0, 0, 0, 0, 1, 0, 0, 0, 0, 0, 1, 0, 97, 9, 0, 96, 0, 0, 20, 0, 0, 0, 0, 0, 2, 0, 16, 0, 0, 10, 0, 0, 0, 0, 0,
  10, 0, 0, 0, 0, 0, 1, 0, 98, 9]), .write 90 ([128, 0, 0, 64, 175, 36, 104, 25]), .write 28 ([7, 1, 0, 16, 0,
  0, 24, 97, 0, 0, 0, 0, 0, 1, 0, 0, 0, 9, 0, 0, 0, 0, 0, 1, 0, 0, 0, 0, 0, 1, 0, 9, 0, 16, 0, 0, 24, 98, 0, 0,
  0, 0, 0, 2, 0, 0, 0, 10, 0, 0, 0, 0, 0, 10, 0, 0, 0, 0, 0, 1, 0, 9]), .write 20 ([128, 0, 0, 62, 144, 106,
  176, 97]), .write 18 ([2, 3]), .write 10 ([128, 0, 0, 2, 0, 17, 37, 22]), .write 9 ([1]), .write 1 ([128, 0,
  0, 1, 0, 0, 17, 18]), .write 0 ([0])]⟩, ⟨14, 5, some ⟨[99], 4209, [0, 0, 0, 0, 2, 0, 0, 0, 0, 1, 0, 0, 0, 0,
  0, 20], 100⟩, some ⟨[0, 0, 0, 0, 0, 5], 4309, [0, 0, 0, 0, 3], 103⟩, none, 0, 0, 8192, 2000, 4096, false⟩,
  false, false⟩
def recA : Db :=
  ⟨⟨[0, 128, 0, 0, 1, 0, 0, 17, 26, 9, 128, 0, 0, 64, 99, 81, 118, 139, 7, 1, 0, 96, 0, 0, 20, 0, 0, 0, 0, 0, 3,
  0, 16, 0, 0, 0, 128, 0, 0, 0, 0, 0, 0, 0, 0, 0, 0, 2, 0, 97, 8, 0, 96, 0, 0, 20, 0, 0, 0, 0, 0, 5, 0, 16, 0,
  0, 9, 0, 0, 0, 0, 0, 1, 0, 0, 0, 0, 0, 1, 0, 99, 9, 128, 0, 0, 62, 224, 17, 178, 211, 7, 1, 0, 16, 0, 0, 24,
  97, 0, 0, 0, 0, 0, 3, 0, 0, 0, 0, 128, 0, 0, 0, 0, 0, 0, 0, 0, 0, 0, 2, 0, 8, 0, 16, 0, 0, 24, 99, 0, 0, 0, 0,
  0, 5, 0, 0, 0, 9, 0, 0, 0, 0, 0, 1, 0, 0, 0, 0, 0, 1, 0, 9] ++ (zeros256 (zeros256 (zeros256 (zeros256
  (zeros256 (zeros256 (zeros256 (zeros256 (zeros256 (zeros256 (zeros256 (zeros256 (zeros256 (zeros256 (zeros256
  (zeros16 (zeros16 (zeros16 (zeros16 (zeros16 (zeros16 (0 :: 0 :: 0 :: 0 :: 0 :: 0 :: 0 :: 0 :: ([1, 0, 0, 0,
  88, 22, 160, 219, 31, 14, 0, 0, 0, 0, 0, 5, 0, 0, 0, 0, 0, 0, 0, 0, 0, 0, 0, 0, 0, 17, 0, 28, 0, 0, 0, 0, 0,
  0, 0, 0, 7, 208, 0, 0, 0, 0, 0, 0, 0, 0, 0, 0, 0, 10, 0, 0, 0, 0, 0, 72, 0, 0, 0, 0, 2, 0, 0, 0, 0, 0, 82, 0,
  0, 0, 0, 0, 70, 0, 0, 0, 0, 1, 0, 0, 0, 0, 1, 0, 0, 0, 0, 0, 9]))))))))))))))))))))))), 4189, ⟨.crc32c, none,
  1279, 1279⟩, [], [.sync, .write 4096 ([1]), .sync, .write 4105 ([14, 0, 0, 0, 0, 0, 5, 0, 0, 0, 0, 0, 0, 0, 0,
  0, 0, 0, 0, 0, 17, 0, 28, 0, 0, 0, 0, 0, 0, 0, 0, 7, 208, 0, 0, 0, 0, 0, 0, 0, 0, 0, 0, 0, 10, 0, 0, 0, 0, 0,
  72, 0, 0, 0, 0, 2, 0, 0, 0, 0, 0, 82, 0, 0, 0, 0, 0, 70, 0, 0, 0, 0, 1, 0, 0, 0, 0, 1, 0, 0, 0, 0, 0, 9]),
  .write 4096 ([0, 0, 0, 0, 88, 22, 160, 219, 31]), .write 90 ([7, 1, 0, 16, 0, 0, 24, 97, 0, 0, 0, 0, 0, 3, 0,
  0, 0, 0, 128, 0, 0, 0, 0, 0, 0, 0, 0, 0, 0, 2, 0, 8, 0, 16, 0, 0, 24, 99, 0, 0, 0, 0, 0, 5, 0, 0, 0, 9, 0, 0,
  0, 0, 0, 1, 0, 0, 0, 0, 0, 1, 0, 9]), .write 82 ([128, 0, 0, 62, 224, 17, 178, 211]), .write 18 ([7, 1, 0, 96,
  0, 0, 20, 0, 0, 0, 0, 0, 3, 0, 16, 0, 0, 0, 128, 0, 0, 0, 0, 0, 0, 0, 0, 0, 0, 2, 0, 97, 8, 0, 96, 0, 0, 20,
  0, 0, 0, 0, 0, 5, 0, 16, 0, 0, 9, 0, 0, 0, 0, 0, 1, 0, 0, 0, 0, 0, 1, 0, 99, 9]), .write 10 ([128, 0, 0, 64,
  99, 81, 118, 139]), .write 9 ([9]), .write 1 ([128, 0, 0, 1, 0, 0, 17, 26]), .write 0 ([0])]⟩, ⟨14, 5, some
  ⟨[99], 82, [0, 0, 0, 0, 1, 0, 0, 0, 0, 1, 0, 0, 0, 0, 0, 9], 70⟩, some ⟨[0, 0, 0, 0, 0, 5], 10, [0, 0, 0, 0,
  2], 72⟩, none, 0, 0, 4096, 2000, 0, false⟩, false, false⟩
def openA : Db :=
  ⟨⟨[0, 128, 0, 0, 1, 0, 0, 17, 26, 9, 128, 0, 0, 64, 99, 81, 118, 139, 7, 1, 0, 96, 0, 0, 20, 0, 0, 0, 0, 0, 3,
  0, 16, 0, 0, 0, 128, 0, 0, 0, 0, 0, 0, 0, 0, 0, 0, 2, 0, 97, 8, 0, 96, 0, 0, 20, 0, 0, 0, 0, 0, 5, 0, 16, 0,
  0, 9, 0, 0, 0, 0, 0, 1, 0, 0, 0, 0, 0, 1, 0, 99, 9, 128, 0, 0, 62, 224, 17, 178, 211, 7, 1, 0, 16, 0, 0, 24,
  97, 0, 0, 0, 0, 0, 3, 0, 0, 0, 0, 128, 0, 0, 0, 0, 0, 0, 0, 0, 0, 0, 2, 0, 8, 0, 16, 0, 0, 24, 99, 0, 0, 0, 0,
  0, 5, 0, 0, 0, 9, 0, 0, 0, 0, 0, 1, 0, 0, 0, 0, 0, 1, 0, 9] ++ (zeros256 (zeros256 (zeros256 (zeros256
  (zeros256 (zeros256 (zeros256 (zeros256 (zeros256 (zeros256 (zeros256 (zeros256 (zeros256 (zeros256 (zeros256
  (zeros16 (zeros16 (zeros16 (zeros16 (zeros16 (zeros16 (0 :: 0 :: 0 :: 0 :: 0 :: 0 :: 0 :: 0 :: ([1, 0, 0, 0,
  88, 22, 160, 219, 31, 14, 0, 0, 0, 0, 0, 5, 0, 0, 0, 0, 0, 0, 0, 0, 0, 0, 0, 0, 0, 17, 0, 28, 0, 0, 0, 0, 0,
  0, 0, 0, 7, 208, 0, 0, 0, 0, 0, 0, 0, 0, 0, 0, 0, 10, 0, 0, 0, 0, 0, 72, 0, 0, 0, 0, 2, 0, 0, 0, 0, 0, 82, 0,
  0, 0, 0, 0, 70, 0, 0, 0, 0, 1, 0, 0, 0, 0, 1, 0, 0, 0, 0, 0, 9]))))))))))))))))))))))), 4189, ⟨.crc32c, none,
  64, 64⟩, [], [.sync, .write 4096 ([1]), .sync, .write 4105 ([14, 0, 0, 0, 0, 0, 5, 0, 0, 0, 0, 0, 0, 0, 0, 0,
  0, 0, 0, 0, 17, 0, 28, 0, 0, 0, 0, 0, 0, 0, 0, 7, 208, 0, 0, 0, 0, 0, 0, 0, 0, 0, 0, 0, 10, 0, 0, 0, 0, 0, 72,
  0, 0, 0, 0, 2, 0, 0, 0, 0, 0, 82, 0, 0, 0, 0, 0, 70, 0, 0, 0, 0, 1, 0, 0, 0, 0, 1, 0, 0, 0, 0, 0, 9]), .write
  4096 ([0, 0, 0, 0, 88, 22, 160, 219, 31]), .write 90 ([7, 1, 0, 16, 0, 0, 24, 97, 0, 0, 0, 0, 0, 3, 0, 0, 0,
  0, 128, 0, 0, 0, 0, 0, 0, 0, 0, 0, 0, 2, 0, 8, 0, 16, 0, 0, 24, 99, 0, 0, 0, 0, 0, 5, 0, 0, 0, 9, 0, 0, 0, 0,
  0, 1, 0, 0, 0, 0, 0, 1, 0, 9]), .write 82 ([128, 0, 0, 62, 224, 17, 178, 211]), .write 18 ([7, 1, 0, 96, 0, 0,
  20, 0, 0, 0, 0, 0, 3, 0, 16, 0, 0, 0, 128, 0, 0, 0, 0, 0, 0, 0, 0, 0, 0, 2, 0, 97, 8, 0, 96, 0, 0, 20, 0, 0,
  0, 0, 0, 5, 0, 16, 0, 0, 9, 0, 0, 0, 0, 0, 1, 0, 0, 0, 0, 0, 1, 0, 99, 9]), .write 10 ([128, 0, 0, 64, 99, 81,
  118, 139]), .write 9 ([9]), .write 1 ([128, 0, 0, 1, 0, 0, 17, 26]), .write 0 ([0])]⟩, ⟨14, 5, some ⟨[], 82,
  [0, 0, 0, 0, 1, 0, 0, 0, 0, 1, 0, 0, 0, 0, 0, 9], 70⟩, some ⟨[], 10, [0, 0, 0, 0, 2], 72⟩, none, 0, 0, 4096,
  2000, 0, false⟩, false, false⟩
def staleA : Db :=
  ⟨⟨[0, 128, 0, 0, 1, 0, 0, 17, 26, 9, 128, 0, 0, 64, 99, 81, 118, 139, 7, 1, 0, 96, 0, 0, 20, 0, 0, 0, 0, 0, 3,
  0, 16, 0, 0, 0, 128, 0, 0, 0, 0, 0, 0, 0, 0, 0, 0, 2, 0, 97, 8, 0, 96, 0, 0, 20, 0, 0, 0, 0, 0, 5, 0, 16, 0,
  0, 9, 0, 0, 0, 0, 0, 1, 0, 0, 0, 0, 0, 1, 0, 99, 9, 128, 0, 0, 62, 224, 17, 178, 211, 7, 1, 0, 16, 0, 0, 24,
  97, 0, 0, 0, 0, 0, 3, 0, 0, 0, 0, 128, 0, 0, 0, 0, 0, 0, 0, 0, 0, 0, 2, 0, 8, 0, 16, 0, 0, 24, 99, 0, 0, 0, 0,
  0, 5, 0, 0, 0, 9, 0, 0, 0, 0, 0, 1, 0, 0, 0, 0, 0, 1, 0, 9] ++ (zeros256 (zeros256 (zeros256 (zeros256
  (zeros256 (zeros256 (zeros256 (zeros256 (zeros256 (zeros256 (zeros256 (zeros256 (zeros256 (zeros256 (zeros256
  (zeros16 (zeros16 (zeros16 (zeros16 (zeros16 (zeros16 (0 :: 0 :: 0 :: 0 :: 0 :: 0 :: 0 :: 0 :: ([1, 0, 0, 0,
  88, 22, 160, 219, 31, 14, 0, 0, 0, 0, 0, 5, 0, 0, 0, 0, 0, 0, 0, 0, 0, 0, 0, 0, 0, 17, 0, 28, 0, 0, 0, 0, 0,
  0, 0, 0, 7, 208, 0, 0, 0, 0, 0, 0, 0, 0, 0, 0, 0, 10, 0, 0, 0, 0, 0, 72, 0, 0, 0, 0, 2, 0, 0, 0, 0, 0, 82, 0,
  0, 0, 0, 0, 70, 0, 0, 0, 0, 1, 0, 0, 0, 0, 1, 0, 0, 0, 0, 0, 9, 128, 0, 0, 2, 0, 17, 37, 22, 2, 3, 128, 0, 0,
  92, 87, 207, 144, 224, 7, 1, 0, 16, 0, 0, 24, 97, 0, 0, 0, 0, 0, 3, 0, 0, 0, 0, 128, 0, 0, 0, 0, 0, 0, 0, 0,
  0, 0, 2, 0, 8, 0, 16, 0, 0, 24, 98, 0, 0, 0, 0, 0, 2, 0, 0, 0, 10, 0, 0, 0, 0, 16, 93, 0, 0, 0, 0, 0, 1, 0, 9,
  0, 16, 0, 0, 24, 99, 0, 0, 0, 0, 0, 5, 0, 0, 0, 9, 0, 0, 0, 0, 0, 1, 0, 0, 0, 0, 0, 1, 0, 9, 128, 0, 0, 95,
  24, 202, 100, 244, 7, 1, 0, 96, 0, 0, 20, 0, 0, 0, 0, 0, 2, 0, 16, 0, 0, 10, 0, 0, 0, 0, 16, 93, 0, 0, 0, 0,
  0, 1, 0, 98, 9, 0, 96, 0, 0, 20, 0, 0, 0, 0, 0, 3, 0, 16, 0, 0, 0, 128, 0, 0, 0, 0, 0, 0, 0, 0, 0, 0, 2, 0,
  97, 8, 0, 96, 0, 0, 20, 0, 0, 0, 0, 0, 5, 0, 16, 0, 0, 9, 0, 0, 0, 0, 0, 1, 0, 0, 0, 0, 0, 1, 0, 99,
  9]))))))))))))))))))))))), 4402, ⟨.crc32c, none, 64, 64⟩, [], [.write 4307 ([7, 1, 0, 96, 0, 0, 20, 0, 0, 0,
  0, 0, 2, 0, 16, 0, 0, 10, 0, 0, 0, 0, 16, 93, 0, 0, 0, 0, 0, 1, 0, 98, 9, 0, 96, 0, 0, 20, 0, 0, 0, 0, 0, 3,
  0, 16, 0, 0, 0, 128, 0, 0, 0, 0, 0, 0, 0, 0, 0, 0, 2, 0, 97, 8, 0, 96, 0, 0, 20, 0, 0, 0, 0, 0, 5, 0, 16, 0,
  0, 9, 0, 0, 0, 0, 0, 1, 0, 0, 0, 0, 0, 1, 0, 99, 9]), .write 4299 ([128, 0, 0, 95, 24, 202, 100, 244]), .write
  4207 ([7, 1, 0, 16, 0, 0, 24, 97, 0, 0, 0, 0, 0, 3, 0, 0, 0, 0, 128, 0, 0, 0, 0, 0, 0, 0, 0, 0, 0, 2, 0, 8, 0,
  16, 0, 0, 24, 98, 0, 0, 0, 0, 0, 2, 0, 0, 0, 10, 0, 0, 0, 0, 16, 93, 0, 0, 0, 0, 0, 1, 0, 9, 0, 16, 0, 0, 24,
  99, 0, 0, 0, 0, 0, 5, 0, 0, 0, 9, 0, 0, 0, 0, 0, 1, 0, 0, 0, 0, 0, 1, 0, 9]), .write 4199 ([128, 0, 0, 92, 87,
  207, 144, 224]), .write 4197 ([2, 3]), .write 4189 ([128, 0, 0, 2, 0, 17, 37, 22]), .sync, .write 4096 ([1]),
  .sync, .write 4105 ([14, 0, 0, 0, 0, 0, 5, 0, 0, 0, 0, 0, 0, 0, 0, 0, 0, 0, 0, 0, 17, 0, 28, 0, 0, 0, 0, 0, 0,
  0, 0, 7, 208, 0, 0, 0, 0, 0, 0, 0, 0, 0, 0, 0, 10, 0, 0, 0, 0, 0, 72, 0, 0, 0, 0, 2, 0, 0, 0, 0, 0, 82, 0, 0,
  0, 0, 0, 70, 0, 0, 0, 0, 1, 0, 0, 0, 0, 1, 0, 0, 0, 0, 0, 9]), .write 4096 ([0, 0, 0, 0, 88, 22, 160, 219,
  31]), .write 90 ([7, 1, 0, 16, 0, 0, 24, 97, 0, 0, 0, 0, 0, 3, 0, 0, 0, 0, 128, 0, 0, 0, 0, 0, 0, 0, 0, 0, 0,
  2, 0, 8, 0, 16, 0, 0, 24, 99, 0, 0, 0, 0, 0, 5, 0, 0, 0, 9, 0, 0, 0, 0, 0, 1, 0, 0, 0, 0, 0, 1, 0, 9]), .write
  82 ([128, 0, 0, 62, 224, 17, 178, 211]), .write 18 ([7, 1, 0, 96, 0, 0, 20, 0, 0, 0, 0, 0, 3, 0, 16, 0, 0, 0,
  128, 0, 0, 0, 0, 0, 0, 0, 0, 0, 0, 2, 0, 97, 8, 0, 96, 0, 0, 20, 0, 0, 0, 0, 0, 5, 0, 16, 0, 0, 9, 0, 0, 0, 0,
  0, 1, 0, 0, 0, 0, 0, 1, 0, 99, 9]), .write 10 ([128, 0, 0, 64, 99, 81, 118, 139]), .write 9 ([9]), .write 1
  ([128, 0, 0, 1, 0, 0, 17, 26]), .write 0 ([0])]⟩, ⟨14, 5, some ⟨[99], 4199, [0, 0, 0, 0, 2, 0, 0, 0, 0, 1, 0,
  0, 0, 0, 0, 19], 100⟩, some ⟨[0, 0, 0, 0, 0, 5], 4299, [0, 0, 0, 0, 3], 103⟩, none, 0, 0, 4096, 2000, 0,
  false⟩, false, false⟩
def lastA : Db :=
  ⟨⟨[0, 128, 0, 0, 1, 0, 0, 17, 26, 9, 128, 0, 0, 64, 99, 81, 118, 139, 7, 1, 0, 96, 0, 0, 20, 0, 0, 0, 0, 0, 3,
  0, 16, 0, 0, 0, 128, 0, 0, 0, 0, 0, 0, 0, 0, 0, 0, 2, 0, 97, 8, 0, 96, 0, 0, 20, 0, 0, 0, 0, 0, 5, 0, 16, 0,
  0, 9, 0, 0, 0, 0, 0, 1, 0, 0, 0, 0, 0, 1, 0, 99, 9, 128, 0, 0, 62, 224, 17, 178, 211, 7, 1, 0, 16, 0, 0, 24,
  97, 0, 0, 0, 0, 0, 3, 0, 0, 0, 0, 128, 0, 0, 0, 0, 0, 0, 0, 0, 0, 0, 2, 0, 8, 0, 16, 0, 0, 24, 99, 0, 0, 0, 0,
  0, 5, 0, 0, 0, 9, 0, 0, 0, 0, 0, 1, 0, 0, 0, 0, 0, 1, 0, 9] ++ (zeros256 (zeros256 (zeros256 (zeros256
  (zeros256 (zeros256 (zeros256 (zeros256 (zeros256 (zeros256 (zeros256 (zeros256 (zeros256 (zeros256 (zeros256
  (zeros16 (zeros16 (zeros16 (zeros16 (zeros16 (zeros16 (0 :: 0 :: 0 :: 0 :: 0 :: 0 :: 0 :: 0 :: ([1, 0, 0, 0,
  88, 22, 160, 219, 31, 14, 0, 0, 0, 0, 0, 5, 0, 0, 0, 0, 0, 0, 0, 0, 0, 0, 0, 0, 0, 17, 0, 28, 0, 0, 0, 0, 0,
  0, 0, 0, 7, 208, 0, 0, 0, 0, 0, 0, 0, 0, 0, 0, 0, 10, 0, 0, 0, 0, 0, 72, 0, 0, 0, 0, 2, 0, 0, 0, 0, 0, 82, 0,
  0, 0, 0, 0, 70, 0, 0, 0, 0, 1, 0, 0, 0, 0, 1, 0, 0, 0, 0, 0, 9, 128, 0, 0, 2, 0, 17, 37, 22, 2, 3, 128, 0, 0,
  92, 87, 207, 144, 224, 7, 1, 0, 16, 0, 0, 24, 97, 0, 0, 0, 0, 0, 3, 0, 0, 0, 0, 128, 0, 0, 0, 0, 0, 0, 0, 0,
  0, 0, 2, 0, 8, 0, 16, 0, 0, 24, 98, 0, 0, 0, 0, 0, 2, 0, 0, 0, 10, 0, 0, 0, 0, 16, 93, 0, 0, 0, 0, 0, 1, 0, 9,
  0, 16, 0, 0, 24, 99, 0, 0, 0, 0, 0, 5, 0, 0, 0, 9, 0, 0, 0, 0, 0, 1, 0, 0, 0, 0, 0, 1, 0, 9, 128, 0, 0, 95,
  24, 202, 100, 244, 7, 1, 0, 96, 0, 0, 20, 0, 0, 0, 0, 0, 2, 0, 16, 0, 0, 10, 0, 0, 0, 0, 16, 93, 0, 0, 0, 0,
  0, 1, 0, 98, 9, 0, 96, 0, 0, 20, 0, 0, 0, 0, 0, 3, 0, 16, 0, 0, 0, 128, 0, 0, 0, 0, 0, 0, 0, 0, 0, 0, 2, 0,
  97, 8, 0, 96, 0, 0, 20, 0, 0, 0, 0, 0, 5, 0, 16, 0, 0, 9, 0, 0, 0, 0, 0, 1, 0, 0, 0, 0, 0, 1, 0, 99, 9] ++
  (zeros256 (zeros256 (zeros256 (zeros256 (zeros256 (zeros256 (zeros256 (zeros256 (zeros256 (zeros256 (zeros256
  (zeros256 (zeros256 (zeros256 (zeros16 (zeros16 (zeros16 (zeros16 (zeros16 (zeros16 (zeros16 (zeros16 (zeros16
  (zeros16 (zeros16 (zeros16 (0 :: 0 :: 0 :: 0 :: 0 :: 0 :: 0 :: 0 :: 0 :: 0 :: 0 :: 0 :: 0 :: 0 :: ([1, 0, 0,
  0, 88, 50, 138, 132, 172, 14, 0, 0, 0, 0, 0, 5, 0, 0, 0, 0, 0, 0, 0, 0, 0, 0, 0, 0, 0, 17, 0, 28, 0, 0, 0, 0,
  0, 0, 0, 0, 0, 5, 0, 0, 0, 0, 32, 0, 0, 0, 0, 0, 16, 203, 0, 0, 0, 0, 0, 103, 0, 0, 0, 0, 3, 0, 0, 0, 0, 16,
  103, 0, 0, 0, 0, 0, 100, 0, 0, 0, 0, 2, 0, 0, 0, 0, 1, 0, 0, 0, 0, 0,
  19]))))))))))))))))))))))))))))))))))))))))))))))))))), 8285, ⟨.crc32c, none, 64, 64⟩, [], [.sync, .write 8192
  ([1]), .sync, .write 8201 ([14, 0, 0, 0, 0, 0, 5, 0, 0, 0, 0, 0, 0, 0, 0, 0, 0, 0, 0, 0, 17, 0, 28, 0, 0, 0,
  0, 0, 0, 0, 0, 0, 5, 0, 0, 0, 0, 32, 0, 0, 0, 0, 0, 16, 203, 0, 0, 0, 0, 0, 103, 0, 0, 0, 0, 3, 0, 0, 0, 0,
  16, 103, 0, 0, 0, 0, 0, 100, 0, 0, 0, 0, 2, 0, 0, 0, 0, 1, 0, 0, 0, 0, 0, 19]), .write 8192 ([0, 0, 0, 0, 88,
  50, 138, 132, 172]), .write 4307 ([7, 1, 0, 96, 0, 0, 20, 0, 0, 0, 0, 0, 2, 0, 16, 0, 0, 10, 0, 0, 0, 0, 16,
  93, 0, 0, 0, 0, 0, 1, 0, 98, 9, 0, 96, 0, 0, 20, 0, 0, 0, 0, 0, 3, 0, 16, 0, 0, 0, 128, 0, 0, 0, 0, 0, 0, 0,
  0, 0, 0, 2, 0, 97, 8, 0, 96, 0, 0, 20, 0, 0, 0, 0, 0, 5, 0, 16, 0, 0, 9, 0, 0, 0, 0, 0, 1, 0, 0, 0, 0, 0, 1,
  0, 99, 9]), .write 4299 ([128, 0, 0, 95, 24, 202, 100, 244]), .write 4207 ([7, 1, 0, 16, 0, 0, 24, 97, 0, 0,
  0, 0, 0, 3, 0, 0, 0, 0, 128, 0, 0, 0, 0, 0, 0, 0, 0, 0, 0, 2, 0, 8, 0, 16, 0, 0, 24, 98, 0, 0, 0, 0, 0, 2, 0,
  0, 0, 10, 0, 0, 0, 0, 16, 93, 0, 0, 0, 0, 0, 1, 0, 9, 0, 16, 0, 0, 24, 99, 0, 0, 0, 0, 0, 5, 0, 0, 0, 9, 0, 0,
  0, 0, 0, 1, 0, 0, 0, 0, 0, 1, 0, 9]), .write 4199 ([128, 0, 0, 92, 87, 207, 144, 224]), .write 4197 ([2, 3]),
  .write 4189 ([128, 0, 0, 2, 0, 17, 37, 22]), .sync, .write 4096 ([1]), .sync, .write 4105 ([14, 0, 0, 0, 0, 0,
  5, 0, 0, 0, 0, 0, 0, 0, 0, 0, 0, 0, 0, 0, 17, 0, 28, 0, 0, 0, 0, 0, 0, 0, 0, 7, 208, 0, 0, 0, 0, 0, 0, 0, 0,
  0, 0, 0, 10, 0, 0, 0, 0, 0, 72, 0, 0, 0, 0, 2, 0, 0, 0, 0, 0, 82, 0, 0, 0, 0, 0, 70, 0, 0, 0, 0, 1, 0, 0, 0,
  0, 1, 0, 0, 0, 0, 0, 9]), .write 4096 ([0, 0, 0, 0, 88, 22, 160, 219, 31]), .write 90 ([7, 1, 0, 16, 0, 0, 24,
  97, 0, 0, 0, 0, 0, 3, 0, 0, 0, 0, 128, 0, 0, 0, 0, 0, 0, 0, 0, 0, 0, 2, 0, 8, 0, 16, 0, 0, 24, 99, 0, 0, 0, 0,
  0, 5, 0, 0, 0, 9, 0, 0, 0, 0, 0, 1, 0, 0, 0, 0, 0, 1, 0, 9]), .write 82 ([128, 0, 0, 62, 224, 17, 178, 211]),
  .write 18 ([7, 1, 0, 96, 0, 0, 20, 0, 0, 0, 0, 0, 3, 0, 16, 0, 0, 0, 128, 0, 0, 0, 0, 0, 0, 0, 0, 0, 0, 2, 0,
  97, 8, 0, 96, 0, 0, 20, 0, 0, 0, 0, 0, 5, 0, 16, 0, 0, 9, 0, 0, 0, 0, 0, 1, 0, 0, 0, 0, 0, 1, 0, 99, 9]),
  .write 10 ([128, 0, 0, 64, 99, 81, 118, 139]), .write 9 ([9]), .write 1 ([128, 0, 0, 1, 0, 0, 17, 26]), .write
  0 ([0])]⟩, ⟨14, 5, some ⟨[99], 4199, [0, 0, 0, 0, 2, 0, 0, 0, 0, 1, 0, 0, 0, 0, 0, 19], 100⟩, some ⟨[0, 0, 0,
  0, 0, 5], 4299, [0, 0, 0, 0, 3], 103⟩, none, 0, 0, 8192, 5, 4096, false⟩, false, false⟩

theorem bdbA_eq : sameDb (harmed bdb4 [4197]) bdbA = true := by decide +kernel
theorem bdbA_noticed : noticedAt bdb4.file bdbA.file (starts bdb4.file) = true := by decide +kernel
theorem bdbA_headers : headersAt bdb4.file bdbA.file (List.range 3) = true := by decide +kernel
theorem recA_eq : recovers (recover Env.toy (sampleStale bdbA)) recA = true := by decide +kernel
theorem openA_eq : opens (openDb Env.toy sampleFlags none [] { recA.file with faults := [] }) openA = true := by
  decide +kernel
theorem staleA_eq : finds (staleLoop Env.toy bdbA 8193 bdbA ⟨openA, 0, false⟩) staleA 1 = true := by decide +kernel
theorem lastA_eq : leaves (commit Env.toy 5 (fun _ => false) staleA) lastA = true := by decide +kernel

/-! ### The index by sequence number is damaged -/

def bdbB : Db :=
  ⟨⟨[0, 128, 0, 0, 1, 0, 0, 17, 18, 1, 128, 0, 0, 2, 0, 17, 37, 22, 2, 3, 128, 0, 0, 62, 144, 106, 176, 97, 7,
  1, 0, 16, 0, 0, 24, 97, 0, 0, 0, 0, 0, 1, 0, 0, 0, 9, 0, 0, 0, 0, 0, 1, 0, 0, 0, 0, 0, 1, 0, 9, 0, 16, 0, 0,
  24, 98, 0, 0, 0, 0, 0, 2, 0, 0, 0, 10, 0, 0, 0, 0, 0, 10, 0, 0, 0, 0, 0, 1, 0, 9, 128, 0, 0, 64, 175, 36, 104,
  25, 7, 1, 0, 96, 0, 0, 20, 0, 0, 0, 0, 0, 1, 0, 16, 0, 0, 9, 0, 0, 0, 0, 0, 1, 0, 0, 0, 0, 0, 1, 0, 97, 9, 0,
  96, 0, 0, 20, 0, 0, 0, 0, 0, 2, 0, 16, 0, 0, 10, 0, 0, 0, 0, 0, 10, 0, 0, 0, 0, 0, 1, 0, 98, 9] ++ (zeros256
  (zeros256 (zeros256 (zeros256 (zeros256 (zeros256 (zeros256 (zeros256 (zeros256 (zeros256 (zeros256 (zeros256
  (zeros256 (zeros256 (zeros256 (zeros16 (zeros16 (zeros16 (zeros16 (zeros16 (0 :: 0 :: 0 :: 0 :: 0 :: 0 :: 0 ::
  0 :: 0 :: 0 :: 0 :: 0 :: 0 :: 0 :: ([1, 0, 0, 0, 88, 117, 156, 128, 76, 14, 0, 0, 0, 0, 0, 2, 0, 0, 0, 0, 0,
  0, 0, 0, 0, 0, 0, 0, 0, 17, 0, 28, 0, 0, 0, 0, 0, 0, 0, 0, 3, 232, 0, 0, 0, 0, 0, 0, 0, 0, 0, 0, 0, 90, 0, 0,
  0, 0, 0, 72, 0, 0, 0, 0, 2, 0, 0, 0, 0, 0, 20, 0, 0, 0, 0, 0, 70, 0, 0, 0, 0, 2, 0, 0, 0, 0, 0, 0, 0, 0, 0, 0,
  19, 128, 0, 0, 3, 17, 58, 71, 35, 5, 6, 7, 128, 0, 0, 1, 0, 0, 17, 26, 9, 128, 0, 0, 92, 11, 250, 155, 90, 7,
  1, 0, 16, 0, 0, 24, 97, 0, 0, 0, 0, 0, 3, 0, 0, 0, 0, 128, 0, 0, 0, 0, 0, 0, 0, 0, 0, 0, 2, 0, 8, 0, 16, 0, 0,
  24, 98, 0, 0, 0, 0, 0, 4, 0, 0, 0, 11, 0, 0, 0, 0, 16, 93, 0, 0, 0, 0, 0, 1, 0, 9, 0, 16, 0, 0, 24, 99, 0, 0,
  0, 0, 0, 5, 0, 0, 0, 9, 0, 0, 0, 0, 16, 104, 0, 0, 0, 0, 0, 1, 0, 9, 128, 0, 0, 95, 2, 49, 71, 110, 7, 1, 0,
  96, 0, 0, 20, 0, 0, 0, 0, 0, 4, 0, 16, 0, 0, 0, 128, 0, 0, 0, 0, 0, 0, 0, 0, 0, 0, 2, 0, 97, 8, 0, 96, 0, 0,
  20, 0, 0, 0, 0, 0, 4, 0, 16, 0, 0, 11, 0, 0, 0, 0, 16, 93, 0, 0, 0, 0, 0, 1, 0, 98, 9, 0, 96, 0, 0, 20, 0, 0,
  0, 0, 0, 5, 0, 16, 0, 0, 9, 0, 0, 0, 0, 16, 104, 0, 0, 0, 0, 0, 1, 0, 99, 9] ++ (zeros256 (zeros256 (zeros256
  (zeros256 (zeros256 (zeros256 (zeros256 (zeros256 (zeros256 (zeros256 (zeros256 (zeros256 (zeros256 (zeros256
  (zeros16 (zeros16 (zeros16 (zeros16 (zeros16 (zeros16 (zeros16 (zeros16 (zeros16 (zeros16 (zeros16 (zeros16 (0
  :: 0 :: 0 :: 0 :: ([1, 0, 0, 0, 88, 104, 107, 43, 147, 14, 0, 0, 0, 0, 0, 5, 0, 0, 0, 0, 0, 0, 0, 0, 0, 0, 0,
  0, 0, 17, 0, 28, 0, 0, 0, 0, 0, 0, 0, 0, 7, 208, 0, 0, 0, 0, 32, 0, 0, 0, 0, 0, 16, 213, 0, 0, 0, 0, 0, 103,
  0, 0, 0, 0, 3, 0, 0, 0, 0, 16, 113, 0, 0, 0, 0, 0, 100, 0, 0, 0, 0, 2, 0, 0, 0, 0, 1, 0, 0, 0, 0, 0,
  20])))))))))))))))))))))))))))))))))))))))))))))))))), 8285, ⟨.crc32c, none, 64, 64⟩, [], [.sync, .write 8192
  ([1]), .sync, .write 8201 ([14, 0, 0, 0, 0, 0, 5, 0, 0, 0, 0, 0, 0, 0, 0, 0, 0, 0, 0, 0, 17, 0, 28, 0, 0, 0,
  0, 0, 0, 0, 0, 7, 208, 0, 0, 0, 0, 32, 0, 0, 0, 0, 0, 16, 213, 0, 0, 0, 0, 0, 103, 0, 0, 0, 0, 3, 0, 0, 0, 0,
  16, 113, 0, 0, 0, 0, 0, 100, 0, 0, 0, 0, 2, 0, 0, 0, 0, 1, 0, 0, 0, 0, 0, 20]), .write 8192 ([0, 0, 0, 0, 88,
  104, 107, 43, 147]), .write 4317 ([7, 1, 0, 96, 0, 0, 20, 0, 0, 0, 0, 0, 3, 0, 16, 0, 0, 0, 128, 0, 0, 0, 0,
  0, 0, 0, 0, 0, 0, 2, 0, 97, 8, 0, 96, 0, 0, 20, 0, 0, 0, 0, 0, 4, 0, 16, 0, 0, 11, 0, 0, 0, 0, 16, 93, 0, 0,
  0, 0, 0, 1, 0, 98, 9, 0, 96, 0, 0, 20, 0, 0, 0, 0, 0, 5, 0, 16, 0, 0, 9, 0, 0, 0, 0, 16, 104, 0, 0, 0, 0, 0,
  1, 0, 99, 9]), .write 4309 ([128, 0, 0, 95, 2, 49, 71, 110]), .write 4217 ([7, 1, 0, 16, 0, 0, 24, 97, 0, 0,
  0, 0, 0, 3, 0, 0, 0, 0, 128, 0, 0, 0, 0, 0, 0, 0, 0, 0, 0, 2, 0, 8, 0, 16, 0, 0, 24, 98, 0, 0, 0, 0, 0, 4, 0,
  0, 0, 11, 0, 0, 0, 0, 16, 93, 0, 0, 0, 0, 0, 1, 0, 9, 0, 16, 0, 0, 24, 99, 0, 0, 0, 0, 0, 5, 0, 0, 0, 9, 0, 0,
  0, 0, 16, 104, 0, 0, 0, 0, 0, 1, 0, 9]), .write 4209 ([128, 0, 0, 92, 11, 250, 155, 90]), .write 4208 ([9]),
  .write 4200 ([128, 0, 0, 1, 0, 0, 17, 26]), .write 4197 ([5, 6, 7]), .write 4189 ([128, 0, 0, 3, 17, 58, 71,
  35]), .sync, .write 4096 ([1]), .sync, .write 4105 ([14, 0, 0, 0, 0, 0, 2, 0, 0, 0, 0, 0, 0, 0, 0, 0, 0, 0, 0,
  0, 17, 0, 28, 0, 0, 0, 0, 0, 0, 0, 0, 3, 232, 0, 0, 0, 0, 0, 0, 0, 0, 0, 0, 0, 90, 0, 0, 0, 0, 0, 72, 0, 0, 0,
  0, 2, 0, 0, 0, 0, 0, 20, 0, 0, 0, 0, 0, 70, 0, 0, 0, 0, 2, 0, 0, 0, 0, 0, 0, 0, 0, 0, 0, 19]), .write 4096
  ([0, 0, 0, 0, 88, 117, 156, 128, 76]), .write 98 ([7, 1, 0, 96, 0, 0, 20, 0, 0, 0, 0, 0, 1, 0, 16, 0, 0, 9, 0,
  0, 0, 0, 0, 1, 0, 0, 0, 0, 0, 1, 0, 97, 9, 0, 96, 0, 0, 20, 0, 0, 0, 0, 0, 2, 0, 16, 0, 0, 10, 0, 0, 0, 0, 0,
  10, 0, 0, 0, 0, 0, 1, 0, 98, 9]), .write 90 ([128, 0, 0, 64, 175, 36, 104, 25]), .write 28 ([7, 1, 0, 16, 0,
  0, 24, 97, 0, 0, 0, 0, 0, 1, 0, 0, 0, 9, 0, 0, 0, 0, 0, 1, 0, 0, 0, 0, 0, 1, 0, 9, 0, 16, 0, 0, 24, 98, 0, 0,
  0, 0, 0, 2, 0, 0, 0, 10, 0, 0, 0, 0, 0, 10, 0, 0, 0, 0, 0, 1, 0, 9]), .write 20 ([128, 0, 0, 62, 144, 106,
  176, 97]), .write 18 ([2, 3]), .write 10 ([128, 0, 0, 2, 0, 17, 37, 22]), .write 9 ([1]), .write 1 ([128, 0,
  0, 1, 0, 0, 17, 18]), .write 0 ([0])]⟩, ⟨14, 5, some ⟨[99], 4209, [0, 0, 0, 0, 2, 0, 0, 0, 0, 1, 0, 0, 0, 0,
  0, 20], 100⟩, some ⟨[0, 0, 0, 0, 0, 5], 4309, [0, 0, 0, 0, 3], 103⟩, none, 0, 0, 8192, 2000, 4096, false⟩,
  false, false⟩
def recB : Db :=
  ⟨⟨zeros256 (zeros256 (zeros256 (zeros256 (zeros256 (zeros256 (zeros256 (zeros256 (zeros256 (zeros256 (zeros256
  (zeros256 (zeros256 (zeros256 (zeros256 (zeros256 (([1, 0, 0, 0, 43, 1, 84, 142, 251, 14, 0, 0, 0, 0, 0, 5] ++
  (zeros16 (0 :: 0 :: 0 :: 0 :: 0 :: 0 :: 0 :: 0 :: ([7, 208, 0, 0, 0, 0, 0, 0])))))))))))))))))))), 4144,
  ⟨.crc32c, none, 1279, 1279⟩, [], [.sync, .write 4096 ([1]), .sync, .write 4105 ([14, 0, 0, 0, 0, 0, 5] ++
  (zeros16 (0 :: 0 :: 0 :: 0 :: 0 :: 0 :: 0 :: 0 :: ([7, 208, 0, 0, 0, 0, 0, 0])))), .write 4096 ([0, 0, 0, 0,
  43, 1, 84, 142, 251]), .write 0 ([0])]⟩, ⟨14, 5, none, none, none, 0, 0, 4096, 2000, 0, false⟩, false, false⟩
def openB : Db :=
  ⟨⟨zeros256 (zeros256 (zeros256 (zeros256 (zeros256 (zeros256 (zeros256 (zeros256 (zeros256 (zeros256 (zeros256
  (zeros256 (zeros256 (zeros256 (zeros256 (zeros256 (([1, 0, 0, 0, 43, 1, 84, 142, 251, 14, 0, 0, 0, 0, 0, 5] ++
  (zeros16 (0 :: 0 :: 0 :: 0 :: 0 :: 0 :: 0 :: 0 :: ([7, 208, 0, 0, 0, 0, 0, 0])))))))))))))))))))), 4144,
  ⟨.crc32c, none, 64, 64⟩, [], [.sync, .write 4096 ([1]), .sync, .write 4105 ([14, 0, 0, 0, 0, 0, 5] ++ (zeros16
  (0 :: 0 :: 0 :: 0 :: 0 :: 0 :: 0 :: 0 :: ([7, 208, 0, 0, 0, 0, 0, 0])))), .write 4096 ([0, 0, 0, 0, 43, 1, 84,
  142, 251]), .write 0 ([0])]⟩, ⟨14, 5, none, none, none, 0, 0, 4096, 2000, 0, false⟩, false, false⟩
def staleB : Db :=
  ⟨⟨zeros256 (zeros256 (zeros256 (zeros256 (zeros256 (zeros256 (zeros256 (zeros256 (zeros256 (zeros256 (zeros256
  (zeros256 (zeros256 (zeros256 (zeros256 (zeros256 (([1, 0, 0, 0, 43, 1, 84, 142, 251, 14, 0, 0, 0, 0, 0, 5] ++
  (zeros16 (0 :: 0 :: 0 :: 0 :: 0 :: 0 :: 0 :: 0 :: ([7, 208, 0, 0, 0, 0, 0, 0, 128, 0, 0, 1, 0, 0, 17, 18, 1,
  128, 0, 0, 32, 181, 111, 18, 246, 7, 1, 0, 16, 0, 0, 24, 97, 0, 0, 0, 0, 0, 1, 0, 0, 0, 9, 0, 0, 0, 0, 16, 48,
  0, 0, 0, 0, 0, 1, 0, 9, 128, 0, 0, 33, 26, 68, 252, 82, 7, 1, 0, 96, 0, 0, 20, 0, 0, 0, 0, 0, 1, 0, 16, 0, 0,
  9, 0, 0, 0, 0, 16, 48, 0, 0, 0, 0, 0, 1, 0, 97, 9, 128, 0, 0, 2, 0, 17, 37, 22, 2, 3, 128, 0, 0, 62, 118, 81,
  10, 48, 7, 1, 0, 16, 0, 0, 24, 97, 0, 0, 0, 0, 0, 1, 0, 0, 0, 9, 0, 0, 0, 0, 16, 48, 0, 0, 0, 0, 0, 1, 0, 9,
  0, 16, 0, 0, 24, 98, 0, 0, 0, 0, 0, 2, 0, 0, 0, 10, 0, 0, 0, 0, 16, 138, 0, 0, 0, 0, 0, 1, 0, 9, 128, 0, 0,
  64, 146, 203, 81, 232, 7, 1, 0, 96, 0, 0, 20, 0, 0, 0, 0, 0, 1, 0, 16, 0, 0, 9, 0, 0, 0, 0, 16, 48, 0, 0, 0,
  0, 0, 1, 0, 97, 9, 0, 96, 0, 0, 20, 0, 0, 0, 0, 0, 2, 0, 16, 0, 0, 10, 0, 0, 0, 0, 16, 138, 0, 0, 0, 0, 0, 1,
  0, 98, 9])))))))))))))))))))), 4386, ⟨.crc32c, none, 64, 64⟩, [], [.write 4322 ([7, 1, 0, 96, 0, 0, 20, 0, 0,
  0, 0, 0, 1, 0, 16, 0, 0, 9, 0, 0, 0, 0, 16, 48, 0, 0, 0, 0, 0, 1, 0, 97, 9, 0, 96, 0, 0, 20, 0, 0, 0, 0, 0, 2,
  0, 16, 0, 0, 10, 0, 0, 0, 0, 16, 138, 0, 0, 0, 0, 0, 1, 0, 98, 9]), .write 4314 ([128, 0, 0, 64, 146, 203, 81,
  232]), .write 4252 ([7, 1, 0, 16, 0, 0, 24, 97, 0, 0, 0, 0, 0, 1, 0, 0, 0, 9, 0, 0, 0, 0, 16, 48, 0, 0, 0, 0,
  0, 1, 0, 9, 0, 16, 0, 0, 24, 98, 0, 0, 0, 0, 0, 2, 0, 0, 0, 10, 0, 0, 0, 0, 16, 138, 0, 0, 0, 0, 0, 1, 0, 9]),
  .write 4244 ([128, 0, 0, 62, 118, 81, 10, 48]), .write 4242 ([2, 3]), .write 4234 ([128, 0, 0, 2, 0, 17, 37,
  22]), .write 4201 ([7, 1, 0, 96, 0, 0, 20, 0, 0, 0, 0, 0, 1, 0, 16, 0, 0, 9, 0, 0, 0, 0, 16, 48, 0, 0, 0, 0,
  0, 1, 0, 97, 9]), .write 4193 ([128, 0, 0, 33, 26, 68, 252, 82]), .write 4161 ([7, 1, 0, 16, 0, 0, 24, 97, 0,
  0, 0, 0, 0, 1, 0, 0, 0, 9, 0, 0, 0, 0, 16, 48, 0, 0, 0, 0, 0, 1, 0, 9]), .write 4153 ([128, 0, 0, 32, 181,
  111, 18, 246]), .write 4152 ([1]), .write 4144 ([128, 0, 0, 1, 0, 0, 17, 18]), .sync, .write 4096 ([1]),
  .sync, .write 4105 ([14, 0, 0, 0, 0, 0, 5] ++ (zeros16 (0 :: 0 :: 0 :: 0 :: 0 :: 0 :: 0 :: 0 :: ([7, 208, 0,
  0, 0, 0, 0, 0])))), .write 4096 ([0, 0, 0, 0, 43, 1, 84, 142, 251]), .write 0 ([0])]⟩, ⟨14, 5, some ⟨[98],
  4244, [0, 0, 0, 0, 2, 0, 0, 0, 0, 0, 0, 0, 0, 0, 0, 19], 70⟩, some ⟨[0, 0, 0, 0, 0, 2], 4314, [0, 0, 0, 0, 2],
  72⟩, none, 0, 0, 4096, 2000, 0, false⟩, false, false⟩
def lastB : Db :=
  ⟨⟨zeros256 (zeros256 (zeros256 (zeros256 (zeros256 (zeros256 (zeros256 (zeros256 (zeros256 (zeros256 (zeros256
  (zeros256 (zeros256 (zeros256 (zeros256 (zeros256 (([1, 0, 0, 0, 43, 1, 84, 142, 251, 14, 0, 0, 0, 0, 0, 5] ++
  (zeros16 (0 :: 0 :: 0 :: 0 :: 0 :: 0 :: 0 :: 0 :: ([7, 208, 0, 0, 0, 0, 0, 0, 128, 0, 0, 1, 0, 0, 17, 18, 1,
  128, 0, 0, 32, 181, 111, 18, 246, 7, 1, 0, 16, 0, 0, 24, 97, 0, 0, 0, 0, 0, 1, 0, 0, 0, 9, 0, 0, 0, 0, 16, 48,
  0, 0, 0, 0, 0, 1, 0, 9, 128, 0, 0, 33, 26, 68, 252, 82, 7, 1, 0, 96, 0, 0, 20, 0, 0, 0, 0, 0, 1, 0, 16, 0, 0,
  9, 0, 0, 0, 0, 16, 48, 0, 0, 0, 0, 0, 1, 0, 97, 9, 128, 0, 0, 2, 0, 17, 37, 22, 2, 3, 128, 0, 0, 62, 118, 81,
  10, 48, 7, 1, 0, 16, 0, 0, 24, 97, 0, 0, 0, 0, 0, 1, 0, 0, 0, 9, 0, 0, 0, 0, 16, 48, 0, 0, 0, 0, 0, 1, 0, 9,
  0, 16, 0, 0, 24, 98, 0, 0, 0, 0, 0, 2, 0, 0, 0, 10, 0, 0, 0, 0, 16, 138, 0, 0, 0, 0, 0, 1, 0, 9, 128, 0, 0,
  64, 146, 203, 81, 232, 7, 1, 0, 96, 0, 0, 20, 0, 0, 0, 0, 0, 1, 0, 16, 0, 0, 9, 0, 0, 0, 0, 16, 48, 0, 0, 0,
  0, 0, 1, 0, 97, 9, 0, 96, 0, 0, 20, 0, 0, 0, 0, 0, 2, 0, 16, 0, 0, 10, 0, 0, 0, 0, 16, 138, 0, 0, 0, 0, 0, 1,
  0, 98, 9] ++ (zeros256 (zeros256 (zeros256 (zeros256 (zeros256 (zeros256 (zeros256 (zeros256 (zeros256
  (zeros256 (zeros256 (zeros256 (zeros256 (zeros256 (zeros16 (zeros16 (zeros16 (zeros16 (zeros16 (zeros16
  (zeros16 (zeros16 (zeros16 (zeros16 (zeros16 (zeros16 (zeros16 (0 :: 0 :: 0 :: 0 :: 0 :: 0 :: 0 :: 0 :: 0 :: 0
  :: 0 :: 0 :: 0 :: 0 :: ([1, 0, 0, 0, 88, 221, 249, 101, 169, 14, 0, 0, 0, 0, 0, 5, 0, 0, 0, 0, 0, 0, 0, 0, 0,
  0, 0, 0, 0, 17, 0, 28, 0, 0, 0, 0, 0, 0, 0, 0, 0, 5, 0, 0, 0, 0, 32, 0, 0, 0, 0, 0, 16, 218, 0, 0, 0, 0, 0,
  72, 0, 0, 0, 0, 2, 0, 0, 0, 0, 16, 148, 0, 0, 0, 0, 0, 70, 0, 0, 0, 0, 2, 0, 0, 0, 0, 0, 0, 0, 0, 0, 0,
  19]))))))))))))))))))))))))))))))))))))))))))))))))), 8285, ⟨.crc32c, none, 64, 64⟩, [], [.sync, .write 8192
  ([1]), .sync, .write 8201 ([14, 0, 0, 0, 0, 0, 5, 0, 0, 0, 0, 0, 0, 0, 0, 0, 0, 0, 0, 0, 17, 0, 28, 0, 0, 0,
  0, 0, 0, 0, 0, 0, 5, 0, 0, 0, 0, 32, 0, 0, 0, 0, 0, 16, 218, 0, 0, 0, 0, 0, 72, 0, 0, 0, 0, 2, 0, 0, 0, 0, 16,
  148, 0, 0, 0, 0, 0, 70, 0, 0, 0, 0, 2, 0, 0, 0, 0, 0, 0, 0, 0, 0, 0, 19]), .write 8192 ([0, 0, 0, 0, 88, 221,
  249, 101, 169]), .write 4322 ([7, 1, 0, 96, 0, 0, 20, 0, 0, 0, 0, 0, 1, 0, 16, 0, 0, 9, 0, 0, 0, 0, 16, 48, 0,
  0, 0, 0, 0, 1, 0, 97, 9, 0, 96, 0, 0, 20, 0, 0, 0, 0, 0, 2, 0, 16, 0, 0, 10, 0, 0, 0, 0, 16, 138, 0, 0, 0, 0,
  0, 1, 0, 98, 9]), .write 4314 ([128, 0, 0, 64, 146, 203, 81, 232]), .write 4252 ([7, 1, 0, 16, 0, 0, 24, 97,
  0, 0, 0, 0, 0, 1, 0, 0, 0, 9, 0, 0, 0, 0, 16, 48, 0, 0, 0, 0, 0, 1, 0, 9, 0, 16, 0, 0, 24, 98, 0, 0, 0, 0, 0,
  2, 0, 0, 0, 10, 0, 0, 0, 0, 16, 138, 0, 0, 0, 0, 0, 1, 0, 9]), .write 4244 ([128, 0, 0, 62, 118, 81, 10, 48]),
  .write 4242 ([2, 3]), .write 4234 ([128, 0, 0, 2, 0, 17, 37, 22]), .write 4201 ([7, 1, 0, 96, 0, 0, 20, 0, 0,
  0, 0, 0, 1, 0, 16, 0, 0, 9, 0, 0, 0, 0, 16, 48, 0, 0, 0, 0, 0, 1, 0, 97, 9]), .write 4193 ([128, 0, 0, 33, 26,
  68, 252, 82]), .write 4161 ([7, 1, 0, 16, 0, 0, 24, 97, 0, 0, 0, 0, 0, 1, 0, 0, 0, 9, 0, 0, 0, 0, 16, 48, 0,
  0, 0, 0, 0, 1, 0, 9]), .write 4153 ([128, 0, 0, 32, 181, 111, 18, 246]), .write 4152 ([1]), .write 4144 ([128,
  0, 0, 1, 0, 0, 17, 18]), .sync, .write 4096 ([1]), .sync, .write 4105 ([14, 0, 0, 0, 0, 0, 5] ++ (zeros16 (0
  :: 0 :: 0 :: 0 :: 0 :: 0 :: 0 :: 0 :: ([7, 208, 0, 0, 0, 0, 0, 0])))), .write 4096 ([0, 0, 0, 0, 43, 1, 84,
  142, 251]), .write 0 ([0])]⟩, ⟨14, 5, some ⟨[98], 4244, [0, 0, 0, 0, 2, 0, 0, 0, 0, 0, 0, 0, 0, 0, 0, 19],
  70⟩, some ⟨[0, 0, 0, 0, 0, 2], 4314, [0, 0, 0, 0, 2], 72⟩, none, 0, 0, 8192, 5, 4096, false⟩, false, false⟩

theorem bdbB_eq : sameDb (harmed bdb4 [4329]) bdbB = true := by decide +kernel
theorem bdbB_noticed : noticedAt bdb4.file bdbB.file (starts bdb4.file) = true := by decide +kernel
theorem bdbB_headers : headersAt bdb4.file bdbB.file (List.range 3) = true := by decide +kernel
theorem recB_eq : recovers (recover Env.toy (sampleStale bdbB)) recB = true := by decide +kernel
theorem openB_eq : opens (openDb Env.toy sampleFlags none [] { recB.file with faults := [] }) openB = true := by
  decide +kernel
theorem staleB_eq : finds (staleLoop Env.toy bdbB 8193 bdbB ⟨openB, 0, false⟩) staleB 2 = true := by decide +kernel
theorem lastB_eq : leaves (commit Env.toy 5 (fun _ => false) staleB) lastB = true := by decide +kernel

end Couchstore.Props
