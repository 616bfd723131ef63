import Verif.Pgsql.Net
import Verif.Pgsql.SpecNet
import Verif.Pgsql.PropsScalar
/-
Go's parser of network addresses reads every text of an address.
-/
namespace Verif.Pgsql

open Verif Verif.PgServer

theorem sepBy_eq (sep : Bytes) (xs : List Bytes) : sepBy sep xs = joinWith sep xs := by
  induction xs with
  | nil => rfl
  | cons x xs ih =>
    cases xs with
    | nil => rfl
    | cons y ys => rw [sepBy, joinWith, ih]

/-! ### Dotted addresses -/

theorem digit_facts : ∀ d < 10, isDig 10 (Nat.digitChar d) = true ∧ (Nat.digitChar d).toNat - 48 = d := by decide

theorem v4Loop_digit (fs : List Nat) (val len d : Nat) (r : Bytes) (hd : d < 10) (h0 : len = 1 → val ≠ 0)
    (h : val * 10 + d ≤ 255) :
    v4Loop fs val len (Nat.digitChar d :: r) = v4Loop fs (val * 10 + d) (len + 1) r := by
  obtain ⟨h1, h2⟩ := digit_facts d hd
  rw [v4Loop, h1, h2, if_pos rfl, if_neg (fun h => h0 h.1 h.2), if_neg (by omega)]

theorem toDigits_small (n : Nat) (h : n < 256) : (n < 10 ∧ Nat.toDigits 10 n = [Nat.digitChar n]) ∨
    (10 ≤ n ∧ n < 100 ∧ Nat.toDigits 10 n = [Nat.digitChar (n / 10), Nat.digitChar (n % 10)]) ∨
    (100 ≤ n ∧ Nat.toDigits 10 n = [Nat.digitChar (n / 100), Nat.digitChar (n / 10 % 10), Nat.digitChar (n % 10)]) := by
  by_cases h1 : n < 10
  · exact .inl ⟨h1, Nat.toDigits_of_lt_base h1⟩
  · have e := Nat.toDigits_of_base_le (b := 10) (n := n) (by decide) (by omega)
    by_cases h2 : n < 100
    · refine .inr (.inl ⟨by omega, h2, ?_⟩)
      rw [e, Nat.toDigits_of_lt_base (by omega)]; rfl
    · refine .inr (.inr ⟨by omega, ?_⟩)
      rw [e, Nat.toDigits_of_base_le (by decide) (by omega), Nat.toDigits_of_lt_base (by omega), Nat.div_div_eq_div_mul]
      rfl

theorem v4Loop_number (fs : List Nat) (n : Nat) (r : Bytes) (h : n < 256) :
    ∃ k, k ≠ 0 ∧ v4Loop fs 0 0 (Nat.toDigits 10 n ++ r) = v4Loop fs n k r := by
  rcases toDigits_small n h with ⟨h1, e⟩ | ⟨h1, h2, e⟩ | ⟨h1, e⟩
  · refine ⟨1, by omega, ?_⟩
    rw [e, List.cons_append, v4Loop_digit _ _ _ _ _ h1 (by omega) (by omega)]
    simp
  · refine ⟨2, by omega, ?_⟩
    rw [e, List.cons_append, v4Loop_digit _ _ _ _ _ (by omega) (by omega) (by omega), List.cons_append,
      v4Loop_digit _ _ _ _ _ (by omega) (by omega) (by omega), List.nil_append]
    congr 1; omega
  · refine ⟨3, by omega, ?_⟩
    rw [e, List.cons_append, v4Loop_digit _ _ _ _ _ (by omega) (by omega) (by omega), List.cons_append,
      v4Loop_digit _ _ _ _ _ (by omega) (by omega) (by omega), List.cons_append,
      v4Loop_digit _ _ _ _ _ (by omega) (by omega) (by omega), List.nil_append]
    congr 1; omega

theorem v4Loop_dot (fs : List Nat) (n k : Nat) (r : Bytes) (hk : k ≠ 0) (hr : r ≠ []) (hf : fs.length < 3) :
    v4Loop fs n k ('.' :: r) = v4Loop (fs ++ [n]) 0 0 r := by
  have : r.length ≠ 0 := by rwa [Ne, List.length_eq_zero_iff]
  rw [v4Loop, if_neg (by decide), if_pos rfl, if_neg (by omega), if_neg (by omega)]

theorem v4Text_cases {t : Bytes} {bs : List UInt8} (h : V4Text t bs) : ∃ a b c d : UInt8, bs = [a, b, c, d] ∧
    t = Nat.toDigits 10 a.toNat ++ '.' :: (Nat.toDigits 10 b.toNat ++ '.' :: (Nat.toDigits 10 c.toNat ++
      '.' :: (Nat.toDigits 10 d.toNat ++ []))) := by
  obtain ⟨h1, h2⟩ := h
  match bs, h1 with
  | [a, b, c, d], _ =>
    refine ⟨a, b, c, d, rfl, ?_⟩
    rw [h2]; simp [joinWith]

theorem parseV4_text {t : Bytes} {bs : List UInt8} (h : V4Text t bs) : parseV4 t = some (bs.map UInt8.toNat) := by
  obtain ⟨a, b, c, d, rfl, rfl⟩ := v4Text_cases h
  have ne : ∀ n r, Nat.toDigits 10 n ++ r ≠ [] := fun n r e => Nat.toDigits_ne_nil (List.append_eq_nil_iff.1 e).1
  obtain ⟨k1, h1, e1⟩ := v4Loop_number [] a.toNat _ (UInt8.toNat_lt a)
  obtain ⟨k2, h2, e2⟩ := v4Loop_number [a.toNat] b.toNat _ (UInt8.toNat_lt b)
  obtain ⟨k3, h3, e3⟩ := v4Loop_number [a.toNat, b.toNat] c.toNat _ (UInt8.toNat_lt c)
  obtain ⟨k4, h4, e4⟩ := v4Loop_number [a.toNat, b.toNat, c.toNat] d.toNat [] (UInt8.toNat_lt d)
  rw [parseV4, e1, v4Loop_dot _ _ _ _ h1 (ne _ _) (by simp)]
  rw [List.nil_append, e2, v4Loop_dot _ _ _ _ h2 (ne _ _) (by simp)]
  rw [List.cons_append, List.nil_append, e3, v4Loop_dot _ _ _ _ h3 (ne _ _) (by simp)]
  rw [List.cons_append, List.cons_append, List.nil_append, e4]
  rfl

/-! ### Words -/

theorem hexTable_facts : ∀ p ∈ hexTable, fromHex p.1 = some p.2 ∧ p.1 ≠ ':' ∧ p.1 ≠ '.' ∧ p.1 ≠ '/' ∧ p.1 ≠ ',' ∧
    isSpace p.1 = false ∧ p.1 ≠ '"' ∧ p.1 ≠ '\\' ∧ p.1 ≠ '{' ∧ p.1 ≠ '}' := by decide

theorem mem_of_lookup {c : Char} {d : Nat} {l : List (Char × Nat)} (h : List.lookup c l = some d) : (c, d) ∈ l := by
  induction l with
  | nil => cases h
  | cons p l ih =>
    obtain ⟨a, b⟩ := p
    rw [List.lookup_cons] at h
    by_cases hc : c = a
    · subst hc; simp at h; simp [h]
    · rw [show (c == a) = false from by simpa using hc] at h
      exact List.mem_cons_of_mem _ (ih h)

theorem hexFold_all {t : Bytes} {n w : Nat} (h : hexFold n t = some w) :
    (∀ c ∈ t, isHex c = true ∧ ∃ d, (c, d) ∈ hexTable) ∧ t.foldl (fun n c => n * 16 + (fromHex c).getD 0) n = w := by
  induction t generalizing n with
  | nil => exact ⟨by simp, by simpa [hexFold] using h⟩
  | cons c t ih =>
    rw [hexFold] at h
    cases hl : List.lookup c hexTable with
    | none => rw [hl] at h; cases h
    | some d =>
      rw [hl] at h
      have hm := mem_of_lookup hl
      have hf := (hexTable_facts _ hm).1
      obtain ⟨h1, h2⟩ := ih h
      refine ⟨?_, by rw [List.foldl_cons, hf]; exact h2⟩
      intro x hx
      rcases List.mem_cons.1 hx with rfl | hx
      · exact ⟨by rw [isHex, hf]; rfl, d, hm⟩
      · exact h1 x hx

theorem hexWord_facts {t : Bytes} {w : Nat} (h : HexWord t w) : t ≠ [] ∧ t.length ≤ 4 ∧ hexNum t = w ∧
    ∀ c ∈ t, isHex c = true ∧ c ≠ ':' ∧ c ≠ '.' ∧ c ≠ '/' ∧ c ≠ ',' ∧
      isSpace c = false ∧ c ≠ '"' ∧ c ≠ '\\' ∧ c ≠ '{' ∧ c ≠ '}' := by
  obtain ⟨h1, h2, h3⟩ := h
  obtain ⟨h4, h5⟩ := hexFold_all h3
  refine ⟨h1, h2, h5, fun c hc => ?_⟩
  obtain ⟨h6, d, h7⟩ := h4 c hc
  exact ⟨h6, (hexTable_facts _ h7).2⟩

theorem run_append {p : Char → Bool} {t r : Bytes} (h : ∀ c ∈ t, p c = true) (hr : ∀ c, r.head? = some c → p c = false) :
    (t ++ r).takeWhile p = t ∧ (t ++ r).dropWhile p = r := by
  induction t with
  | nil =>
    cases r with
    | nil => exact ⟨rfl, rfl⟩
    | cons c r => simp [hr c rfl]
  | cons c t ih =>
    have := ih fun c hc => h c (by simp [hc])
    simp [h c (by simp), this]

/-- A word followed by nothing or a colon. -/
theorem v6Loop_word {t : Bytes} {w : Nat} (h : HexWord t w) (k : Nat) (gs : List Nat) (el : Option Nat) (r : Bytes)
    (hr : r = [] ∨ ∃ r', r = ':' :: r') :
    v6Loop (k + 1) gs el (t ++ r) = v6Next (gs ++ [w]) el r (v6Loop k (gs ++ [w])) := by
  obtain ⟨h1, h2, h3, h4⟩ := hexWord_facts h
  obtain ⟨e1, e2⟩ := run_append (p := isHex) (t := t) (r := r) (fun c hc => (h4 c hc).1) (by
    rcases hr with rfl | ⟨r', rfl⟩
    · simp
    · intro c hc; obtain rfl : ':' = c := by simpa using hc
      decide)
  have hl : t.length ≠ 0 := by rwa [Ne, List.length_eq_zero_iff]
  rw [v6Loop, e1, e2, h3, if_neg (by omega), if_neg]
  rcases hr with rfl | ⟨r', rfl⟩ <;> simp

theorem isHex_digit : ∀ d < 10, isHex (Nat.digitChar d) = true := by decide

theorem toDigits_hex (n : Nat) : ∀ c ∈ Nat.toDigits 10 n, isHex c = true := by
  intro c hc
  have h := isDig_toDigits 10 n (by omega) (by omega) c hc
  simp only [isDig, Bool.and_eq_true, decide_eq_true_eq] at h
  rw [isHex, fromHex, if_pos ⟨h.1, by
    have := h.2; simp only [Char.reduceToNat] at this ⊢; omega⟩]
  rfl

theorem v4Text_head {t : Bytes} {bs : List UInt8} (h : V4Text t bs) :
    ∃ n r, n < 256 ∧ t = Nat.toDigits 10 n ++ '.' :: r := by
  obtain ⟨a, b, c, d, -, e⟩ := v4Text_cases h
  exact ⟨a.toNat, _, UInt8.toNat_lt a, e⟩

/-- A dotted address at the end. -/
theorem v6Loop_dotted {t : Bytes} {a b c d : UInt8} (h : V4Text t [a, b, c, d]) (k : Nat) (gs : List Nat)
    (el : Option Nat) (h1 : gs.length ≤ 6) (h2 : el.isSome = true ∨ gs.length = 6) :
    v6Loop (k + 1) gs el t =
      some (gs ++ [a.toNat * 256 + b.toNat, c.toNat * 256 + d.toNat], el, []) := by
  obtain ⟨n, r, hn, et⟩ := v4Text_head h
  obtain ⟨e1, e2⟩ := run_append (p := isHex) (t := Nat.toDigits 10 n) (r := '.' :: r)
    (toDigits_hex _) (fun c hc => by
    obtain rfl : '.' = c := by simpa using hc
    decide)
  rw [v6Loop, parseV4_text h, et, e1, e2, if_neg, if_pos (by rfl), if_neg]
  · rfl
  · rintro (⟨x, y⟩ | x)
    · rcases h2 with h2 | h2
      · cases el <;> simp_all
      · exact y h2
    · omega
  · rcases toDigits_small n hn with ⟨_, e⟩ | ⟨_, _, e⟩ | ⟨_, e⟩ <;> rw [e] <;> simp

theorem joinWith_cons (sep : Bytes) (t : Bytes) (ts : List Bytes) (h : ts ≠ []) :
    joinWith sep (t :: ts) = t ++ sep ++ joinWith sep ts := by
  cases ts with
  | nil => exact absurd rfl h
  | cons y ys => rfl

theorem hexWords_mixed {ts : List Bytes} {ws : List Nat} (h : HexWords ts ws) : MixedWords ts ws := by
  induction h with
  | nil => exact .nil
  | cons h _ ih => exact .cons h ih

/-- The first character of the words is no colon. -/
theorem mixed_head {t : Bytes} {ts : List Bytes} {ws : List Nat} (h : MixedWords (t :: ts) ws) :
    ∃ c s, joinWith b!":" (t :: ts) = c :: s ∧ c ≠ ':' := by
  have key : ∀ c t', t = c :: t' → ∃ s, joinWith b!":" (t :: ts) = c :: s := by
    rintro c t' rfl
    cases ts with
    | nil => exact ⟨t', rfl⟩
    | cons y ys => exact ⟨_, by rw [joinWith_cons _ _ _ (by simp), List.append_assoc, List.cons_append]⟩
  cases h with
  | dotted h =>
    obtain ⟨n, r, hn, e⟩ := v4Text_head h
    obtain ⟨x, hx, e'⟩ : ∃ x : Char, x ≠ ':' ∧ ∃ y, t = x :: y := by
      cases hd : Nat.toDigits 10 n with
      | nil => exact absurd hd Nat.toDigits_ne_nil
      | cons x y =>
        refine ⟨x, ?_, y ++ '.' :: r, by rw [e, hd]; rfl⟩
        rintro rfl
        have := toDigits_hex n ':' (by rw [hd]; simp)
        revert this; decide
    obtain ⟨y, rfl⟩ := e'
    obtain ⟨s, hs⟩ := key _ _ rfl
    exact ⟨x, s, hs, hx⟩
  | cons h _ =>
    obtain ⟨h1, -, -, h4⟩ := hexWord_facts h
    cases t with
    | nil => exact absurd rfl h1
    | cons c t =>
      obtain ⟨s, hs⟩ := key c t rfl
      exact ⟨c, s, hs, (h4 c (by simp)).2.1⟩

/-- The words at the end of the text. -/
theorem v6Loop_end {ts : List Bytes} {ws : List Nat} (h : MixedWords ts ws) (hne : ts ≠ []) (gs : List Nat)
    (el : Option Nat) (h1 : gs.length + ws.length ≤ 8) (h2 : el.isSome = true ∨ gs.length + ws.length = 8) :
    v6Loop (8 - gs.length) gs el (joinWith b!":" ts) = some (gs ++ ws, el, []) := by
  induction h generalizing gs with
  | nil => exact absurd rfl hne
  | dotted h =>
    simp only [List.length_cons, List.length_nil] at h1 h2
    rw [show 8 - gs.length = (7 - gs.length) + 1 by omega]
    exact v6Loop_dotted h _ gs el (by omega) (h2.imp id (by omega))
  | @cons t w ts ws hw hm ih =>
    simp only [List.length_cons] at h1 h2
    rw [show 8 - gs.length = (7 - gs.length) + 1 by omega]
    cases ts with
    | nil =>
      cases hm
      have := v6Loop_word hw (7 - gs.length) gs el [] (.inl rfl)
      rw [List.append_nil] at this
      rw [joinWith, this, v6Next]
    | cons t' ts =>
      obtain ⟨c, s, e, hc⟩ := mixed_head hm
      rw [joinWith_cons _ _ _ (by simp), List.append_assoc, List.singleton_append,
        v6Loop_word hw _ gs el _ (.inr ⟨_, rfl⟩), e]
      have := ih (by simp) (gs ++ [w]) (by simp; omega)
        (h2.imp id (by simp; omega))
      rw [e, List.length_append, List.length_singleton, show 8 - (gs.length + 1) = 7 - gs.length by omega,
        List.append_assoc] at this
      rw [v6Next]
      · exact this
      · exact hc

/-- The words before two colons. -/
theorem v6Loop_start {ts : List Bytes} {ws : List Nat} (h : HexWords ts ws) (hne : ts ≠ []) (gs : List Nat)
    (r : Bytes) (h1 : gs.length + ws.length ≤ 7) :
    v6Loop (8 - gs.length) gs none (joinWith b!":" ts ++ b!"::" ++ r) =
      if r.length = 0 then some (gs ++ ws, some (gs ++ ws).length, [])
      else v6Loop (8 - (gs ++ ws).length) (gs ++ ws) (some (gs ++ ws).length) r := by
  induction h generalizing gs with
  | nil => exact absurd rfl hne
  | @cons t w ts ws hw hm ih =>
    simp only [List.length_cons] at h1
    rw [show 8 - gs.length = (7 - gs.length) + 1 by omega]
    cases ts with
    | nil =>
      cases hm
      rw [joinWith, List.append_assoc, List.cons_append, v6Loop_word hw _ gs none _ (.inr ⟨_, rfl⟩)]
      simp only [List.cons_append, List.nil_append, v6Next]
      simp only [Option.isSome_none, Bool.false_eq_true, if_false]
      rw [List.length_append, List.length_singleton, show 8 - (gs.length + 1) = 7 - gs.length by omega]
    | cons t' ts =>
      have hc : ∃ c s, joinWith b!":" (t' :: ts) = c :: s ∧ c ≠ ':' := by
        cases hm with
        | cons hw hm' => exact mixed_head (.cons hw (hexWords_mixed hm'))
      obtain ⟨c, s, e, hc⟩ := hc
      rw [joinWith_cons _ _ _ (by simp), List.append_assoc, List.append_assoc, List.append_assoc, List.singleton_append,
        v6Loop_word hw _ gs none _ (.inr ⟨_, rfl⟩), e]
      have := ih (by simp) (gs ++ [w]) (by simp; omega)
      rw [e, List.length_append, List.length_singleton, show 8 - (gs.length + 1) = 7 - gs.length by omega,
        show gs ++ [w] ++ ws = gs ++ w :: ws by simp, List.append_assoc] at this
      rw [List.cons_append, v6Next]
      · exact this
      · exact hc

theorem parseV6_text {t : Bytes} {ws : List Nat} (h : V6Text t ws) : parseV6 t = some ws := by
  cases h with
  | full h hl =>
    cases h with
    | nil => cases hl
    | dotted => simp at hl
    | @cons t w ts ws hw hm =>
      obtain ⟨c, s, e, hc⟩ := mixed_head (.cons hw hm)
      have := v6Loop_end (.cons hw hm) (by simp) [] none (by simp at hl ⊢; omega) (.inr (by simp at hl ⊢; omega))
      rw [parseV6, if_neg]
      · rw [show 8 = 8 - ([] : List Nat).length from rfl, this]
        simp only [Option.bind_some, v6End, List.nil_append, hl]
        rfl
      · rw [e]
        intro h
        exact hc (by cases s <;> simp_all)
  | @short l r a b ha hb hl =>
    have hn : r ≠ [] → (joinWith b!":" r).length ≠ 0 := by
      intro h
      cases r with
      | nil => exact absurd rfl h
      | cons t ts =>
        obtain ⟨c, s, e, -⟩ := mixed_head hb
        rw [e]; simp
    cases l with
    | nil =>
      cases ha
      rw [joinWith, List.nil_append, parseV6, if_pos (by rfl)]
      by_cases h0 : r = []
      · subst h0; cases hb; rfl
      · simp only [List.length_nil, Nat.zero_add] at hl
        have := v6Loop_end hb h0 [] (some 0) (by simp; omega) (.inl rfl)
        have h1 := hn h0
        rw [if_neg (by rw [List.length_append]; simp only [List.length_cons, List.length_nil]; omega), show (b!"::" ++ joinWith b!":" r).drop 2 =
          joinWith b!":" r from rfl, show 8 = 8 - ([] : List Nat).length from rfl, this]
        simp [v6End, hl]
    | cons t ts =>
      obtain ⟨c, s, e, hc⟩ := mixed_head (hexWords_mixed ha)
      have := v6Loop_start ha (by simp) [] (joinWith b!":" r) (by simp; omega)
      rw [parseV6, if_neg]
      · rw [show 8 = 8 - ([] : List Nat).length from rfl, this]
        simp only [List.nil_append]
        by_cases h0 : r = []
        · subst h0; cases hb
          simp only [List.length_nil, Nat.add_zero] at hl
          simp [joinWith, v6End, hl]
        · rw [if_neg (hn h0), v6Loop_end hb h0 a _ (by omega) (.inl rfl)]
          simp only [Option.bind_some, v6End, List.length_append, hl, List.length_nil]
          simp
      · rw [e]
        intro h
        exact hc (by cases s <;> simp_all)

/-! ### Both -/

theorem find_sep {t : Bytes} {c : Char} {r : Bytes} (h : ∀ x ∈ t, x ≠ ':' ∧ x ≠ '.') (hc : c = '.' ∨ c = ':') :
    (t ++ c :: r).find? (fun c => decide (c = '.' ∨ c = ':')) = some c := by
  induction t with
  | nil => simp [hc]
  | cons x t ih =>
    have := h x (by simp)
    rw [List.cons_append, List.find?_cons, show decide (x = '.' ∨ x = ':') = false by simp [this]]
    exact ih fun y hy => h y (by simp [hy])

theorem toDigits_free (n : Nat) : ∀ x ∈ Nat.toDigits 10 n, x ≠ ':' ∧ x ≠ '.' := by
  intro x hx
  have := toDigits_hex n x hx
  constructor <;> rintro rfl <;> revert this <;> decide

theorem v6Text_colon {t : Bytes} {ws : List Nat} (h : V6Text t ws) :
    ∃ l r, t = l ++ ':' :: r ∧ ∀ x ∈ l, x ≠ ':' ∧ x ≠ '.' := by
  have word : ∀ {t : Bytes} {w : Nat}, HexWord t w → ∀ x ∈ t, x ≠ ':' ∧ x ≠ '.' := fun h x hx =>
    have := (hexWord_facts h).2.2.2 x hx
    ⟨this.2.1, this.2.2.1⟩
  cases h with
  | full h hl =>
    cases h with
    | nil => cases hl
    | dotted => simp at hl
    | @cons t w ts ws hw hm =>
      cases ts with
      | nil => cases hm; simp at hl
      | cons t' ts =>
        exact ⟨t, _, by rw [joinWith_cons _ _ _ (by simp), List.append_assoc]; rfl, word hw⟩
  | @short l r a b ha hb hl =>
    cases ha with
    | nil => exact ⟨[], _, rfl, by simp⟩
    | @cons t w ts ws hw hm =>
      cases ts with
      | nil => exact ⟨t, _, by rw [joinWith, List.append_assoc]; rfl, word hw⟩
      | cons t' ts =>
        exact ⟨t, _, by rw [joinWith_cons _ _ _ (by simp), List.append_assoc, List.append_assoc, List.append_assoc]; rfl, word hw⟩

/-- Every text of an address is read as the address. -/
theorem parseAddr_text {t : Bytes} {bs : List UInt8} (h : AddrText t bs) : parseAddr t = some bs := by
  rcases h with h | ⟨ws, h, rfl⟩
  · obtain ⟨n, r, -, e⟩ := v4Text_head h
    rw [parseAddr, parseV4_text h, e, find_sep (toDigits_free n) (.inl rfl)]
    simp only [Option.map_some, List.map_map]
    rw [show (UInt8.ofNat ∘ UInt8.toNat) = id from funext fun b => by simp, List.map_id]
  · obtain ⟨l, r, e, hl⟩ := v6Text_colon h
    rw [parseAddr, parseV6_text h, e, find_sep hl (.inr rfl)]
    rfl

/-! ### Go's texts -/

theorem hexFold_append (n : Nat) (s r : Bytes) : hexFold n (s ++ r) = (hexFold n s).bind (hexFold · r) := by
  induction s generalizing n with
  | nil => rfl
  | cons c s ih =>
    rw [List.cons_append, hexFold, hexFold]
    cases List.lookup c hexTable with
    | none => rfl
    | some d => simp only [Option.bind_some]; exact ih _

theorem digit16 : ∀ d < 16, List.lookup (Nat.digitChar d) hexTable = some d := by decide

theorem hexFold_toDigits (n : Nat) : hexFold 0 (Nat.toDigits 16 n) = some n := by
  induction n using Nat.strongRecOn with
  | ind n ih =>
    by_cases h : n < 16
    · rw [Nat.toDigits_of_lt_base h, hexFold, digit16 n h]; simp [hexFold]
    · rw [Nat.toDigits_of_base_le (by decide) (by omega), hexFold_append, ih (n / 16) (by omega)]
      rw [Option.bind_some, hexFold, digit16 _ (by omega)]
      simp only [Option.bind_some, hexFold]
      congr 1; omega

theorem hexWord_toDigits (w : Nat) (h : w < 65536) : HexWord (Nat.toDigits 16 w) w :=
  ⟨Nat.toDigits_ne_nil, (Nat.length_toDigits_le_iff (by decide) (by decide)).2 h, hexFold_toDigits w⟩

theorem hexWords_map (ws : List Nat) (h : ∀ w ∈ ws, w < 65536) : HexWords (ws.map (Nat.toDigits 16)) ws := by
  induction ws with
  | nil => exact .nil
  | cons w ws ih => exact .cons (hexWord_toDigits w (h w (by simp))) (ih fun v hv => h v (by simp [hv]))

/-- The best run is none, or zero words. -/
def GoodRun (ws : List Nat) (z : Nat × Nat) : Prop :=
  z = (255, 0) ∨ z.1 < 8 ∧ z.2 = zeroRun ws z.1 ∧ 2 ≤ z.2

theorem bestRun_good (ws : List Nat) : GoodRun ws (bestRun ws) := by
  have : ∀ (l : List Nat) z, (∀ i ∈ l, i < 8) → GoodRun ws z → GoodRun ws (l.foldl (betterRun ws) z) := by
    intro l
    induction l with
    | nil => intro z _ h; exact h
    | cons i l ih =>
      intro z hi h
      rw [List.foldl_cons]
      refine ih _ (fun j hj => hi j (by simp [hj])) ?_
      rw [betterRun]
      split
      · rename_i hc; exact .inr ⟨hi i (by simp), rfl, hc.1⟩
      · exact h
  exact this _ _ (fun i hi => List.mem_range.1 hi) (.inl rfl)

theorem zeroRun_split (ws : List Nat) (i : Nat) :
    ws.drop i = List.replicate (zeroRun ws i) 0 ++ ws.drop (i + zeroRun ws i) := by
  rw [← List.drop_drop, zeroRun]
  generalize ws.drop i = l
  induction l with
  | nil => rfl
  | cons a l ih =>
    by_cases h : a = 0
    · subst h; simp only [List.takeWhile_cons, decide_true, if_true, List.length_cons, List.replicate_succ, List.cons_append, List.drop_succ_cons]
      rw [← ih]
    · simp [h]

/-- Words, each with a colon before it. -/
def colons (ws : List Nat) : Bytes := ws.flatMap fun w => ':' :: Nat.toDigits 16 w

theorem joinWith_colons (w : Nat) (ws : List Nat) :
    joinWith b!":" ((w :: ws).map (Nat.toDigits 16)) = Nat.toDigits 16 w ++ colons ws := by
  induction ws generalizing w with
  | nil => simp [joinWith, colons]
  | cons v ws ih =>
    rw [List.map_cons, joinWith_cons _ _ _ (by simp), ih v]
    simp [colons]

theorem v6Words_after (ws : List Nat) (z : Nat × Nat) (hw : ws.length = 8) (n i : Nat) (h1 : z.1 < i) (h2 : 8 ≤ n + i) :
    v6Words ws z n i = colons (ws.drop i) := by
  induction n generalizing i with
  | zero => rw [v6Words, List.drop_eq_nil_of_le (by omega)]; rfl
  | succ n ih =>
    rw [v6Words]
    split
    · rw [List.drop_eq_nil_of_le (by omega)]; rfl
    · rw [if_neg (by omega), if_pos (by omega), ih (i + 1) (by omega) (by omega),
        List.drop_eq_getElem_cons (show i < ws.length by omega)]
      simp only [colons, List.getD_eq_getElem?_getD, List.getElem?_eq_getElem (show i < ws.length by omega),
        List.flatMap_cons, Option.getD_some, List.cons_append, List.nil_append]

theorem v6Words_at (ws : List Nat) (z : Nat × Nat) (hw : ws.length = 8) (n : Nat) (h1 : z.1 < 8) (h2 : 8 ≤ n + z.1)
    (h3 : 2 ≤ z.2) :
    v6Words ws z n z.1 = b!"::" ++ joinWith b!":" ((ws.drop (z.1 + z.2)).map (Nat.toDigits 16)) := by
  cases n with
  | zero => omega
  | succ n =>
    rw [v6Words, if_neg (by omega), if_pos rfl]
    split
    · rw [List.drop_eq_nil_of_le (by omega)]; rfl
    · rw [v6Words_after ws z hw n _ (by omega) (by omega),
        List.drop_eq_getElem_cons (show z.1 + z.2 < ws.length by omega), joinWith_colons]
      simp [List.getD_eq_getElem?_getD, List.getElem?_eq_getElem (show z.1 + z.2 < ws.length by omega)]

theorem v6Words_before (ws : List Nat) (z : Nat × Nat) (hw : ws.length = 8) (k : Nat) :
    ∀ n i, i + k = min z.1 8 → 0 < i → 8 ≤ n + i → v6Words ws z n i = colons ((ws.drop i).take k) ++ v6Words ws z (n - k) (i + k) := by
  induction k with
  | zero => intro n i _ _ _; simp [colons]
  | succ k ih =>
    intro n i h1 h2 h3
    cases n with
    | zero => omega
    | succ n =>
      rw [v6Words, if_neg (by omega), if_neg (by omega), if_pos h2, ih n (i + 1) (by omega) (by omega) (by omega),
        List.drop_eq_getElem_cons (show i < ws.length by omega)]
      simp only [List.take_succ_cons, colons, List.flatMap_cons, List.append_assoc, List.cons_append, List.nil_append]
      rw [show n + 1 - (k + 1) = n - k by omega, show i + (k + 1) = i + 1 + k by omega]
      simp [List.getD_eq_getElem?_getD, List.getElem?_eq_getElem (show i < ws.length by omega)]

/-- An IPv6 address is written in one of its texts. -/
theorem v6Words_text (ws : List Nat) (hw : ws.length = 8) (hb : ∀ w ∈ ws, w < 65536) :
    V6Text (v6Words ws (bestRun ws) 8 0) ws := by
  have start : ∀ z : Nat × Nat, 0 < z.1 → v6Words ws z 8 0 =
      joinWith b!":" ((ws.take (min z.1 8)).map (Nat.toDigits 16)) ++ v6Words ws z (8 - min z.1 8) (min z.1 8) := by
    intro z hz
    match ws, hw with
    | a :: r, hw =>
      rw [v6Words, if_neg (by omega), if_neg (by omega), if_neg (by omega),
        v6Words_before (a :: r) z hw (min z.1 8 - 1) 7 1 (by omega) (by omega) (by omega),
        show min z.1 8 = (min z.1 8 - 1) + 1 by omega, List.take_succ_cons, joinWith_colons]
      simp only [List.drop_succ_cons, List.drop_zero, Nat.add_sub_cancel, List.nil_append, List.append_assoc]
      congr 3
      · omega
      · omega
  rcases bestRun_good ws with h | ⟨h1, h2, h3⟩
  · rw [h, start (255, 0) (by decide)]
    have e : v6Words ws (255, 0) (8 - min 255 8) (min 255 8) = [] := rfl
    simp only [e, List.append_nil]
    rw [show min 255 8 = ws.length by rw [hw]; rfl, List.take_length]
    exact .full (hexWords_mixed (hexWords_map ws hb)) hw
  · generalize bestRun ws = z at h1 h2 h3
    have hs := zeroRun_split ws z.1
    rw [← h2] at hs
    have hl : z.1 + z.2 ≤ 8 := by
      have := congrArg List.length hs
      simp [hw] at this
      have : z.2 ≤ 8 - z.1 := by
        rw [h2, zeroRun]
        have := (List.takeWhile_sublist (p := fun x => decide (x = 0)) (l := ws.drop z.1)).length_le
        rw [List.length_drop, hw] at this
        exact this
      omega
    have hd : ws = ws.take z.1 ++ List.replicate (8 - ((ws.take z.1).length + (ws.drop (z.1 + z.2)).length)) 0 ++
        ws.drop (z.1 + z.2) := by
      have e : 8 - ((ws.take z.1).length + (ws.drop (z.1 + z.2)).length) = z.2 := by
        simp [hw]; omega
      rw [e, List.append_assoc, ← hs, List.take_append_drop]
    have ht : v6Words ws z 8 0 = joinWith b!":" ((ws.take z.1).map (Nat.toDigits 16)) ++ b!"::" ++
        joinWith b!":" ((ws.drop (z.1 + z.2)).map (Nat.toDigits 16)) := by
      by_cases h0 : z.1 = 0
      · have := v6Words_at ws z hw 8 h1 (by omega) h3
        rw [h0] at this ⊢
        rw [this]; simp [joinWith]
      · rw [start z (by omega), show min z.1 8 = z.1 by omega, v6Words_at ws z hw _ h1 (by omega) h3, List.append_assoc]
    rw [ht]
    have := V6Text.short (hexWords_map (ws.take z.1) fun w hm => hb w (List.mem_of_mem_take hm))
      (hexWords_mixed (hexWords_map (ws.drop (z.1 + z.2)) fun w hm => hb w (List.mem_of_mem_drop hm)))
      (by simp [hw]; omega)
    rw [← hd] at this
    exact this

end Verif.Pgsql
