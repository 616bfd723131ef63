import Verif.Pgsql.PropsNet
/-
C77: inet and cidr. Masks, and the parser of networks.
-/
namespace Verif.Pgsql

open Verif Verif.PgServer

/-! ### Numbers -/

theorem ipNum_lt (bs : List UInt8) : ipNum bs < 256 ^ bs.length := by
  induction bs with
  | nil => decide
  | cons b bs ih =>
    rw [ipNum, List.length_cons, Nat.pow_succ]
    have h1 := UInt8.toNat_lt b
    have h2 : b.toNat * 256 ^ bs.length ≤ 255 * 256 ^ bs.length := Nat.mul_le_mul_right _ (by omega)
    omega

theorem ipNum_inj {a b : List UInt8} (h : a.length = b.length) (e : ipNum a = ipNum b) : a = b := by
  induction a generalizing b with
  | nil => cases b with
    | nil => rfl
    | cons => cases h
  | cons x a ih =>
    cases b with
    | nil => cases h
    | cons y b =>
      simp only [List.length_cons, Nat.add_right_cancel_iff] at h
      rw [ipNum, ipNum, ← h] at e
      have ha := ipNum_lt a
      have hb := ipNum_lt b
      rw [← h] at hb
      have hp : 0 < 256 ^ a.length := Nat.pow_pos (by decide)
      have h1 : x.toNat = y.toNat := by
        have e1 : (x.toNat * 256 ^ a.length + ipNum a) / 256 ^ a.length = x.toNat := by
          rw [Nat.mul_comm, Nat.mul_add_div hp, Nat.div_eq_of_lt ha]; rfl
        have e2 : (y.toNat * 256 ^ a.length + ipNum b) / 256 ^ a.length = y.toNat := by
          rw [Nat.mul_comm, Nat.mul_add_div hp, Nat.div_eq_of_lt hb]; rfl
        rw [← e1, ← e2, e]
      rw [h1] at e
      rw [ih h (by omega), UInt8.toNat_inj.1 h1]

theorem pow_256 (L : Nat) : 256 ^ L = 2 ^ (8 * L) := by rw [show 256 = 2 ^ 8 from rfl, ← Nat.pow_mul]

theorem cidrMask_length (len n : Nat) : (cidrMask len n).length = len := by
  induction len generalizing n with
  | zero => rfl
  | succ len ih => rw [cidrMask]; split <;> simp [ih]

theorem num_zeros (len : Nat) : ipNum (cidrMask len 0) = 0 := by
  induction len with
  | zero => rfl
  | succ len ih =>
    rw [cidrMask, if_neg (by decide), ipNum, ih]
    simp

theorem byteMask : ∀ n < 8, (UInt8.ofNat (256 - 2 ^ (8 - n))).toNat = 256 - 2 ^ (8 - n) ∧ n ≤ 8 ∧
    2 ^ (8 - n) * 2 ^ n = 256 ∧ 0 < 2 ^ (8 - n) ∧ 2 ^ (8 - n) ≤ 256 := by decide

/-- The mask has ones in front and as many zeros as are left. -/
theorem ipNum_cidrMask (len n : Nat) (h : n ≤ 8 * len) : ipNum (cidrMask len n) + 2 ^ (8 * len - n) = 2 ^ (8 * len) := by
  induction len generalizing n with
  | zero => obtain rfl : n = 0 := by omega
            rfl
  | succ len ih =>
    rw [cidrMask]
    split
    · rename_i h8
      have := ih (n - 8) (by omega)
      rw [ipNum, cidrMask_length, show 8 * (len + 1) - n = 8 * len - (n - 8) by omega, Nat.add_assoc, this, pow_256,
        show 8 * (len + 1) = 8 * len + 8 by omega, Nat.pow_add]
      have : (255 : UInt8).toNat = 255 := rfl
      rw [this]; omega
    · rename_i h8
      obtain ⟨h1, -, -, -, h4⟩ := byteMask n (by omega)
      rw [ipNum, cidrMask_length, num_zeros, h1, pow_256, show 8 * (len + 1) - n = (8 - n) + 8 * len by omega, Nat.pow_add,
        show 8 * (len + 1) = 8 + 8 * len by omega, Nat.pow_add, Nat.add_zero, ← Nat.add_mul]
      congr 1; omega

/-- A mask of `n` ones. -/
def PrefixMask (m : Raw) (n : Nat) : Prop := n ≤ 8 * m.length ∧ ipNum m + 2 ^ (8 * m.length - n) = 2 ^ (8 * m.length)

theorem prefixMask_iff (m : Raw) (n : Nat) : PrefixMask m n ↔ n ≤ 8 * m.length ∧ m = cidrMask m.length n := by
  constructor
  · rintro ⟨h, e⟩
    refine ⟨h, ipNum_inj (by rw [cidrMask_length]) ?_⟩
    have := ipNum_cidrMask m.length n h
    omega
  · rintro ⟨h, e⟩
    have := ipNum_cidrMask m.length n h
    rw [← e] at this
    exact ⟨h, this⟩

theorem leadOnes_mask : ∀ n < 8, ∀ k < 200, leadOnes 8 k (256 - 2 ^ (8 - n)) = (k + n, 0) := by decide +kernel

theorem zeros_all (len : Nat) : (cidrMask len 0).all (· = 0) = true := by
  induction len with
  | zero => rfl
  | succ len ih =>
    rw [cidrMask, if_neg (by decide)]
    simp only [List.all_cons, ih, Bool.and_true]
    decide

theorem byteMask_ne : ∀ n < 8, UInt8.ofNat (256 - 2 ^ (8 - n)) ≠ 255 := by decide

theorem maskLen_cidrMask (len n k : Nat) (h : n ≤ 8 * len) (hk : k + 8 * len < 200) :
    maskLen k (cidrMask len n) = some (k + n) := by
  induction len generalizing n k with
  | zero => obtain rfl : n = 0 := by omega
            rfl
  | succ len ih =>
    rw [cidrMask]
    split
    · rw [maskLen, if_pos rfl, ih _ _ (by omega) (by omega)]
      congr 1; omega
    · rename_i h8
      have h1 := (byteMask n (by omega)).1
      rw [maskLen, if_neg (byteMask_ne n (by omega)), h1, leadOnes_mask n (by omega) k (by omega), zeros_all,
        if_pos ⟨rfl, rfl⟩]

theorem and_byte : ∀ n < 8, ∀ b < 256, UInt8.toNat (UInt8.ofNat b &&& UInt8.ofNat (256 - 2 ^ (8 - n))) =
    b / 2 ^ (8 - n) * 2 ^ (8 - n) := by decide +kernel

theorem and_ones : ∀ b < 256, UInt8.ofNat b &&& 255 = UInt8.ofNat b := by decide +kernel
theorem and_zero : ∀ b < 256, UInt8.ofNat b &&& UInt8.ofNat (256 - 2 ^ (8 - 0)) = 0 := by decide +kernel

theorem masked_length (a : Raw) (n : Nat) : (List.zipWith (· &&& ·) a (cidrMask a.length n)).length = a.length := by
  rw [List.length_zipWith, cidrMask_length, Nat.min_self]

theorem ipNum_masked_zero (a : Raw) : ipNum (List.zipWith (· &&& ·) a (cidrMask a.length 0)) = 0 := by
  induction a with
  | nil => rfl
  | cons b a ih =>
    rw [List.length_cons, cidrMask, if_neg (by decide), List.zipWith_cons_cons, ipNum, ih]
    have := and_zero b.toNat (UInt8.toNat_lt b)
    rw [UInt8.ofNat_toNat] at this
    rw [this]; simp

/-- Masking clears the bits on the right. -/
theorem ipNum_masked (a : Raw) (n : Nat) (h : n ≤ 8 * a.length) :
    ipNum (List.zipWith (· &&& ·) a (cidrMask a.length n)) =
      ipNum a / 2 ^ (8 * a.length - n) * 2 ^ (8 * a.length - n) := by
  induction a generalizing n with
  | nil => simp [ipNum]
  | cons b a ih =>
    rw [List.length_cons] at h ⊢
    rw [cidrMask]
    split
    · rename_i h8
      have h1 := and_ones b.toNat (UInt8.toNat_lt b)
      rw [UInt8.ofNat_toNat] at h1
      rw [List.zipWith_cons_cons, ipNum, masked_length, h1, ih (n - 8) (by omega), ipNum,
        show 8 * (a.length + 1) - n = 8 * a.length - (n - 8) by omega]
      have hd : 256 ^ a.length = 2 ^ (n - 8) * 2 ^ (8 * a.length - (n - 8)) := by
        rw [pow_256, ← Nat.pow_add]; congr 1; omega
      have hp : 0 < 2 ^ (8 * a.length - (n - 8)) := Nat.pow_pos (by decide)
      generalize 2 ^ (8 * a.length - (n - 8)) = q at hd hp
      rw [hd, ← Nat.mul_assoc, Nat.mul_comm (b.toNat * _) q, Nat.mul_add_div hp, Nat.add_mul, Nat.mul_comm q]
    · rename_i h8
      have h1 := and_byte n (by omega) b.toNat (UInt8.toNat_lt b)
      rw [UInt8.ofNat_toNat] at h1
      rw [List.zipWith_cons_cons, ipNum, masked_length, h1, ipNum_masked_zero, ipNum, Nat.add_zero,
        show 8 * (a.length + 1) - n = 8 * a.length + (8 - n) by omega, Nat.pow_add, ← pow_256, ← Nat.div_div_eq_div_mul]
      have hp : 0 < 256 ^ a.length := Nat.pow_pos (by decide)
      rw [Nat.mul_comm b.toNat, Nat.mul_add_div hp, Nat.div_eq_of_lt (ipNum_lt a), Nat.add_zero, Nat.mul_assoc]
      congr 1
      rw [Nat.mul_comm]

/-! ### Characters -/

/-- The characters of addresses and networks. -/
def AddrChars (t : Bytes) : Prop := ∀ c ∈ t, isHex c = true ∨ c = ':' ∨ c = '.'

theorem joinWith_chars {p : Char → Prop} {sep : Bytes} {ts : List Bytes} (hs : ∀ c ∈ sep, p c)
    (h : ∀ t ∈ ts, ∀ c ∈ t, p c) : ∀ c ∈ joinWith sep ts, p c := by
  induction ts with
  | nil => simp [joinWith]
  | cons t ts ih =>
    cases ts with
    | nil => exact h t (by simp)
    | cons t' ts =>
      intro c hc
      rw [joinWith_cons _ _ _ (by simp)] at hc
      rcases List.mem_append.1 hc with hc | hc
      · rcases List.mem_append.1 hc with hc | hc
        · exact h t (by simp) c hc
        · exact hs c hc
      · exact ih (fun t ht => h t (by simp [ht])) c hc

theorem v4Text_chars {t : Bytes} {bs : List UInt8} (h : V4Text t bs) : AddrChars t := by
  rw [h.2]
  refine joinWith_chars (by simp) ?_
  intro t ht c hc
  obtain ⟨b, -, rfl⟩ := List.mem_map.1 ht
  exact .inl (toDigits_hex _ c hc)

theorem mixed_chars {ts : List Bytes} {ws : List Nat} (h : MixedWords ts ws) : ∀ t ∈ ts, AddrChars t := by
  induction h with
  | nil => simp
  | dotted h => intro t ht; obtain rfl : t = _ := by simpa using ht
                exact v4Text_chars h
  | cons h _ ih =>
    intro t ht
    rcases List.mem_cons.1 ht with rfl | ht
    · exact fun c hc => .inl ((hexWord_facts h).2.2.2 c hc).1
    · exact ih t ht

theorem addrText_chars {t : Bytes} {bs : List UInt8} (h : AddrText t bs) : AddrChars t := by
  rcases h with h | ⟨ws, h, rfl⟩
  · exact v4Text_chars h
  · cases h with
    | full h _ => exact joinWith_chars (by simp) (mixed_chars h)
    | short h1 h2 _ =>
      have c1 := joinWith_chars (sep := b!":") (by simp) (mixed_chars (hexWords_mixed h1))
      have c2 := joinWith_chars (sep := b!":") (by simp) (mixed_chars h2)
      intro c hc
      simp only [List.mem_append, List.mem_cons, List.not_mem_nil, or_false] at hc
      rcases hc with (hc | hc) | hc
      · exact c1 c hc
      · exact .inr (.inl (by rcases hc with h | h <;> exact h))
      · exact c2 c hc

theorem addrText_ne_nil {t : Bytes} {bs : List UInt8} (h : AddrText t bs) : t ≠ [] := by
  rcases h with h | ⟨ws, h, rfl⟩
  · obtain ⟨n, r, -, rfl⟩ := v4Text_head h
    simp
  · obtain ⟨l, r, rfl, -⟩ := v6Text_colon h
    simp

theorem isHex_free {c : Char} (h : isHex c = true) : c ≠ '/' ∧ c ≠ ',' ∧ isSpace c = false ∧ c ≠ '"' ∧ c ≠ '\\' ∧
    c ≠ '{' ∧ c ≠ '}' := by
  have key : ∀ d, isHex d = false → c ≠ d := fun d hd e => by rw [e, hd] at h; cases h
  refine ⟨key _ (by decide), key _ (by decide), ?_, key _ (by decide), key _ (by decide), key _ (by decide), key _ (by decide)⟩
  cases hs : isSpace c with
  | false => rfl
  | true =>
    simp only [isSpace, Bool.or_eq_true, decide_eq_true_eq] at hs
    exfalso
    revert hs
    simp only [imp_false, not_or]
    exact ⟨⟨⟨⟨⟨key _ (by decide), key _ (by decide)⟩, key _ (by decide)⟩, key _ (by decide)⟩, key _ (by decide)⟩, key _ (by decide)⟩

theorem addrChars_free {t : Bytes} (h : AddrChars t) : '/' ∉ t ∧ ',' ∉ t ∧ Plain t := by
  refine ⟨fun hc => ?_, fun hc => ?_, fun c hc => ?_⟩
  · have := h _ hc; revert this; decide
  · have := h _ hc; revert this; decide
  · rcases h c hc with h | rfl | rfl
    · exact (isHex_free h).2.2 |>.imp id fun h' => ⟨h'.1, h'.2.1, h'.2.2.1, h'.2.2.2, (isHex_free h).2.1⟩
    · decide
    · decide

/-! ### Networks -/

theorem dtoi_toDigits (n : Nat) : dtoi (Nat.toDigits 10 n) = some n := by
  rw [dtoi, if_neg, Nat.ofDigitChars_toDigits (by decide) (by decide)]
  rintro (h | h)
  · exact Nat.toDigits_ne_nil (List.length_eq_zero_iff.1 h)
  · exact h (List.all_eq_true.2 (isDig_toDigits 10 n (by omega) (by omega)))

theorem parseCIDR_text {t : Bytes} {v : Inet} (h : CidrText t v) (hv : v.Valid) : parseCIDR t =
    .ok { ip := some (List.zipWith (· &&& ·) v.addr (cidrMask v.addr.length v.bits)),
          mask := some (cidrMask v.addr.length v.bits) } := by
  obtain ⟨a, ha, rfl⟩ := h
  have hf := addrChars_free (addrText_chars ha)
  obtain ⟨e1, e2⟩ := run_append (p := fun c => decide (c ≠ '/')) (t := a) (r := '/' :: Nat.toDigits 10 v.bits)
    (fun c hc => by simp only [decide_eq_true_eq]; rintro rfl; exact hf.1 hc) (fun c hc => by
      obtain rfl : '/' = c := by simpa using hc
      decide)
  have hb := hv.bits
  rw [parseCIDR, if_pos (by simp), e1, e2, parseAddr_text ha, List.drop_succ_cons, List.drop_zero, dtoi_toDigits]
  simp only []
  rw [if_neg (by omega)]

theorem v4Loop_bad {c : Char} (hc : isDig 10 c = false ∧ c ≠ '.') {s : Bytes} (h : c ∈ s) (fs : List Nat) (v k : Nat) :
    v4Loop fs v k s = none := by
  induction s generalizing fs v k with
  | nil => cases h
  | cons x s ih =>
    rw [v4Loop]
    by_cases hx : x = c
    · subst hx; rw [hc.1]; simp [hc.2]
    · have ih := ih (by simpa [Ne.symm hx] using h)
      split
      · split
        · rfl
        · split
          · rfl
          · exact ih _ _ _
      · split
        · split
          · rfl
          · split
            · rfl
            · exact ih _ _ _
        · rfl

theorem v6Loop_bad {c : Char} (hc : isHex c = false ∧ c ≠ '.' ∧ c ≠ ':') (k : Nat) : ∀ {s : Bytes}, c ∈ s →
    ∀ (gs : List Nat) (el : Option Nat) {p : List Nat × Option Nat × Bytes}, v6Loop k gs el s = some p → c ∈ p.2.2 := by
  induction k with
  | zero => intro s h gs el p e; rw [v6Loop] at e; cases e; exact h
  | succ k ih =>
    intro s h gs el p e
    rw [v6Loop] at e
    have hd : isDig 10 c = false := by
      cases hd : isDig 10 c with
      | false => rfl
      | true =>
        simp only [isDig, Bool.and_eq_true, decide_eq_true_eq] at hd
        rw [isHex, fromHex, if_pos ⟨hd.1, by have := hd.2; simp only [Char.reduceToNat] at this ⊢; omega⟩] at hc
        exact absurd hc.1 (by simp)
    split at e
    · cases e
    · split at e
      · split at e
        · cases e
        · rw [parseV4, v4Loop_bad ⟨hd, hc.2.1⟩ h] at e; cases e
      · have h' : c ∈ s.dropWhile isHex := by
          have := List.takeWhile_append_dropWhile (p := isHex) (l := s)
          rw [← this] at h
          rcases List.mem_append.1 h with h | h
          · have := List.all_eq_true.1 List.all_takeWhile c h
            rw [hc.1] at this; cases this
          · exact h
        generalize s.dropWhile isHex = r at e h'
        rw [v6Next.eq_def] at e
        split at e
        · cases h'
        · split at e
          · cases e
          · split at e
            · rename_i h0
              rw [List.length_eq_zero_iff.1 h0] at h'
              simp [hc.2.2] at h'
            · refine ih ?_ _ _ e
              simpa [hc.2.2] using h'
        · refine ih ?_ _ _ e
          rcases List.mem_cons.1 h' with h' | h'
          · exact absurd h' hc.2.2
          · exact h'
        · cases e

/-- A text with any other character is no address. -/
theorem parseAddr_bad {c : Char} (hc : isHex c = false ∧ c ≠ '.' ∧ c ≠ ':') {s : Bytes} (h : c ∈ s) :
    parseAddr s = none := by
  have hd : isDig 10 c = false := by
    cases hd : isDig 10 c with
    | false => rfl
    | true =>
      simp only [isDig, Bool.and_eq_true, decide_eq_true_eq] at hd
      rw [isHex, fromHex, if_pos ⟨hd.1, by have := hd.2; simp only [Char.reduceToNat] at this ⊢; omega⟩] at hc
      exact absurd hc.1 (by simp)
  rw [parseAddr]
  split
  · rw [parseV4, v4Loop_bad ⟨hd, hc.2.1⟩ h]; rfl
  · have key : ∀ {s : Bytes} (_ : c ∈ s) (el : Option Nat),
        ((v6Loop 8 [] el s).bind fun p => v6End p.1 p.2.1 p.2.2) = none := by
      intro s h el
      cases e : v6Loop 8 [] el s with
      | none => rfl
      | some p =>
        have := v6Loop_bad hc 8 h [] el e
        rw [Option.bind_some, v6End, if_pos]
        intro h0
        rw [List.length_eq_zero_iff.1 h0] at this; cases this
    rw [parseV6]
    split
    · rename_i h2
      have e : s = b!"::" ++ s.drop 2 := by rw [← h2, List.take_append_drop]
      rw [e] at h
      have hm : c ∈ s.drop 2 := by simpa [hc.2.2] using h
      rw [if_neg, key hm]
      · rfl
      · intro hl
        rw [List.drop_eq_nil_of_le (by omega)] at hm; cases hm
    · rw [key h]; rfl
  · rfl

end Verif.Pgsql
