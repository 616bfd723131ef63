import Verif.Pgsql.Floats
import Verif.Pgsql.PropsMoney
/-
C80, part 1: rounding of a quotient to the nearest number of a format.
-/
namespace Verif.Pgsql

open Verif Verif.PgServer

/-! ### The exponent of the last bit -/

theorem low_le_last (f : FFmt) (x : Nat) : f.low ≤ last f x := Nat.le_max_left _ _

theorem lt_last (f : FFmt) (x : Nat) : x < 2 ^ (f.prec + last f x) := by
  refine Nat.lt_of_lt_of_le (Nat.lt_log2_self (n := x)) (Nat.pow_le_pow_right (by omega) ?_)
  have := Nat.le_max_right f.low (Nat.log2 x + 1 - f.prec)
  rw [last]; omega

theorem le_last (f : FFmt) (x : Nat) (hp : 0 < f.prec) (h : f.low < last f x) :
    2 ^ (f.prec - 1 + last f x) ≤ x := by
  have h1 : last f x = Nat.log2 x + 1 - f.prec := by rw [last] at h ⊢; omega
  have h0 : x ≠ 0 := by
    rintro rfl
    rw [h1] at h
    simp at h; omega
  refine Nat.le_trans (Nat.pow_le_pow_right (by omega) ?_) (Nat.log2_self_le h0)
  omega

theorem last_le (f : FFmt) (hp : 0 < f.prec) (x e : Nat) (h : x < 2 ^ (f.prec + e)) (he : f.low ≤ e) :
    last f x ≤ e := by
  rw [last]
  by_cases h0 : x = 0
  · subst h0; simp only [Nat.log2_zero]; omega
  · have := (Nat.log2_lt h0).mpr h
    omega

theorem fits_iff (f : FFmt) (x : Nat) (hp : 0 < f.prec) : f.Fits x ↔ 2 ^ last f x ∣ x := by
  constructor
  · rintro ⟨m, e, rfl, hm, he⟩
    have := last_le f hp (m * 2 ^ e) e (by
      rw [Nat.pow_add]; exact Nat.mul_lt_mul_of_pos_right hm (Nat.two_pow_pos _)) he
    exact Nat.dvd_trans (Nat.pow_dvd_pow 2 this) (Nat.dvd_mul_left _ _)
  · rintro ⟨m, hm⟩
    refine ⟨m, last f x, by rw [Nat.mul_comm]; exact hm, ?_, low_le_last f x⟩
    have h := lt_last f x
    rw [Nat.pow_add, Nat.mul_comm] at h
    conv at h => lhs; rw [hm]
    exact Nat.lt_of_mul_lt_mul_left h

/-! ### Rounding to whole numbers -/

theorem dist_cases (a b : Nat) : (a ≤ b ∧ dist a b = b - a) ∨ (b ≤ a ∧ dist a b = a - b) := by
  rw [dist]; omega

theorem roundEven_tie (n d : Nat) (hd : 0 < d) (h : 2 * dist n (roundEven n d * d) = d) :
    roundEven n d % 2 = 0 := by
  have h1 := Nat.div_add_mod n d
  have h2 := Nat.mod_lt n hd
  have h3 : n / d * d = d * (n / d) := Nat.mul_comm _ _
  have h4 : (n / d + 1) * d = d * (n / d) + d := by rw [Nat.add_mul, h3]; omega
  rw [roundEven] at h ⊢
  rw [dist] at h
  split at h
  · rw [h3] at h; omega
  · split at h
    · rw [h4] at h; omega
    · split at h
      · simp only [*, if_true, if_false]
      · simp only [*, if_false]
        omega

theorem roundEven_nearest (n d k : Nat) (hd : 0 < d) :
    dist n (roundEven n d * d) ≤ dist n (k * d) ∧
    (dist n (roundEven n d * d) = dist n (k * d) → k ≠ roundEven n d → roundEven n d % 2 = 0) := by
  obtain ⟨b1, b2⟩ := roundEven_bounds n d hd
  have ht := roundEven_tie n d hd
  generalize roundEven n d = r at *
  rcases Nat.lt_trichotomy k r with h | h | h
  · have := Nat.mul_le_mul_right d (show k + 1 ≤ r from h)
    rw [Nat.add_mul] at this
    simp only [dist] at *
    refine ⟨by omega, fun e _ => ht ?_⟩
    omega
  · subst h; simp
  · have := Nat.mul_le_mul_right d (show r + 1 ≤ k from h)
    rw [Nat.add_mul] at this
    simp only [dist] at *
    refine ⟨by omega, fun e _ => ht ?_⟩
    omega

theorem roundEven_le (n d k : Nat) (hd : 0 < d) (h : n ≤ k * d) : roundEven n d ≤ k := by
  obtain ⟨b1, b2⟩ := roundEven_bounds n d hd
  have ht := roundEven_nearest n d k hd
  generalize roundEven n d = r at *
  refine Nat.le_of_not_lt fun hk => ?_
  have := Nat.mul_le_mul_right d (show k + 1 ≤ r from hk)
  rw [Nat.add_mul] at this
  simp only [dist] at ht
  omega

theorem le_roundEven (n d k : Nat) (hd : 0 < d) (h : k * d ≤ n) : k ≤ roundEven n d := by
  obtain ⟨b1, b2⟩ := roundEven_bounds n d hd
  have ht := roundEven_nearest n d k hd
  generalize roundEven n d = r at *
  refine Nat.le_of_not_lt fun hk => ?_
  have := Nat.mul_le_mul_right d (show r + 1 ≤ k from hk)
  rw [Nat.add_mul] at this
  simp only [dist] at ht
  omega

/-! ### Rounding to a format -/

theorem round_grid (f : FFmt) (hp : 2 ≤ f.prec) (n d : Nat) (hd : 0 < d) :
    roundEven (n * unit) (d * 2 ^ last f (n * unit / d)) ≤ 2 ^ f.prec ∧
    (f.low < last f (n * unit / d) →
      2 ^ (f.prec - 1) * (d * 2 ^ last f (n * unit / d)) ≤ n * unit ∧
      2 ^ (f.prec - 1) ≤ roundEven (n * unit) (d * 2 ^ last f (n * unit / d))) := by
  have hD : 0 < d * 2 ^ last f (n * unit / d) := Nat.mul_pos hd (Nat.two_pow_pos _)
  refine ⟨roundEven_le _ _ _ hD ?_, fun h => ?_⟩
  · have h := lt_last f (n * unit / d)
    rw [Nat.div_lt_iff_lt_mul hd, Nat.pow_add, Nat.mul_assoc, Nat.mul_comm _ d] at h
    exact Nat.le_of_lt h
  · have h1 := le_last f (n * unit / d) (by omega) h
    rw [Nat.le_div_iff_mul_le hd, Nat.pow_add, Nat.mul_assoc, Nat.mul_comm _ d] at h1
    exact ⟨h1, le_roundEven _ _ _ hD h1⟩

theorem fits_zero (f : FFmt) : f.Fits 0 := ⟨0, f.low, by simp, Nat.two_pow_pos _, Nat.le_refl _⟩

theorem round_fits (f : FFmt) (hp : 2 ≤ f.prec) (n d : Nat) (hd : 0 < d) : f.Fits (round f n d) := by
  obtain ⟨h, _⟩ := round_grid f hp n d hd
  rcases Nat.lt_or_eq_of_le h with h | h
  · exact ⟨_, _, rfl, h, low_le_last f _⟩
  · refine ⟨1, f.prec + last f (n * unit / d), ?_, Nat.one_lt_two_pow (by omega), ?_⟩
    · rw [round, h, Nat.one_mul, Nat.pow_add]
    · have := low_le_last f (n * unit / d); omega

theorem pow_half (p : Nat) (hp : 1 ≤ p) : 2 ^ p = 2 * 2 ^ (p - 1) := by
  obtain ⟨k, rfl⟩ : ∃ k, p = k + 1 := ⟨p - 1, by omega⟩
  rw [Nat.pow_succ, Nat.add_sub_cancel, Nat.mul_comm]

theorem round_even (f : FFmt) (hp : 2 ≤ f.prec) (n d : Nat) (hd : 0 < d)
    (h : roundEven (n * unit) (d * 2 ^ last f (n * unit / d)) % 2 = 0) : f.FitsEven (round f n d) := by
  obtain ⟨h1, h2⟩ := round_grid f hp n d hd
  rcases Nat.lt_or_eq_of_le h1 with h1 | h1
  · refine ⟨_, _, rfl, h1, low_le_last f _, ?_, h⟩
    rcases Nat.lt_or_eq_of_le (low_le_last f (n * unit / d)) with h3 | h3
    · exact Or.inr (h2 h3).2
    · exact Or.inl h3.symm
  · refine ⟨2 ^ (f.prec - 1), last f (n * unit / d) + 1, ?_, ?_, ?_, Or.inr (Nat.le_refl _), ?_⟩
    · rw [round, h1, pow_half f.prec (by omega), Nat.pow_succ]
      generalize 2 ^ last f (n * unit / d) = a
      rw [Nat.mul_comm 2, Nat.mul_assoc, Nat.mul_comm 2]
    · exact Nat.pow_lt_pow_right (by omega) (by omega)
    · have := low_le_last f (n * unit / d); omega
    · rw [pow_half (f.prec - 1) (by omega)]; simp

/-- What is rounded is rounded to the nearest number of the format, ties to even. -/
theorem round_nearest (f : FFmt) (hp : 2 ≤ f.prec) (n d : Nat) (hd : 0 < d) :
    f.Nearest n d (round f n d) := by
  refine ⟨round_fits f hp n d hd, fun y hy => ?_⟩
  have hu : n * 2 ^ 1074 = n * unit := by rw [unit]
  rw [hu]
  have hD : 0 < d * 2 ^ last f (n * unit / d) := Nat.mul_pos hd (Nat.two_pow_pos _)
  have e1 : round f n d * d =
      roundEven (n * unit) (d * 2 ^ last f (n * unit / d)) * (d * 2 ^ last f (n * unit / d)) := by
    rw [round, Nat.mul_assoc, Nat.mul_comm _ d]
  have hr := fun k => roundEven_nearest (n * unit) _ k hD
  have he := round_even f hp n d hd
  obtain ⟨_, hlow⟩ := round_grid f hp n d hd
  rw [e1]
  obtain ⟨m, e, rfl, hm, hle⟩ := hy
  by_cases hge : last f (n * unit / d) ≤ e
  · obtain ⟨j, rfl⟩ : ∃ j, e = j + last f (n * unit / d) := ⟨e - last f (n * unit / d), by omega⟩
    have e2 : m * 2 ^ (j + last f (n * unit / d)) * d =
        m * 2 ^ j * (d * 2 ^ last f (n * unit / d)) := by
      rw [Nat.pow_add]
      generalize 2 ^ last f (n * unit / d) = a
      rw [← Nat.mul_assoc, Nat.mul_assoc, Nat.mul_comm a]
    rw [e2]
    refine ⟨(hr _).1, fun h1 h2 => he ((hr _).2 h1 fun h3 => h2 ?_)⟩
    rw [round, ← h3, Nat.pow_add, Nat.mul_assoc]
  · have hlt : f.low < last f (n * unit / d) := by omega
    obtain ⟨hG, _⟩ := hlow hlt
    have h3 := (hr (2 ^ (f.prec - 1))).1
    have h4 : m * 2 ^ e * d < 2 ^ (f.prec - 1) * (d * 2 ^ last f (n * unit / d)) := by
      rw [Nat.mul_comm d, ← Nat.mul_assoc, ← Nat.pow_add]
      refine Nat.mul_lt_mul_of_pos_right ?_ hd
      refine Nat.lt_of_lt_of_le (Nat.mul_lt_mul_of_pos_right hm (Nat.two_pow_pos e)) ?_
      rw [← Nat.pow_add]
      exact Nat.pow_le_pow_right (by omega) (by omega)
    simp only [dist] at h3 ⊢
    refine ⟨by omega, fun h => ?_⟩
    omega

/-- The number after the one with the even significand `m`. -/
theorem next_fits (f : FFmt) (hp : 2 ≤ f.prec) (m e : Nat) (hm : m < 2 ^ f.prec) (he : f.low ≤ e)
    (h2 : m % 2 = 0) : f.Fits ((m + 1) * 2 ^ e) := by
  refine ⟨m + 1, e, rfl, ?_, he⟩
  have := pow_half f.prec (by omega)
  omega

/-- A greater number of the format has no smaller exponent. -/
theorem exp_mono (f : FFmt) (hp : 2 ≤ f.prec) (m e m' e' : Nat) (hm' : m' < 2 ^ f.prec)
    (hc : e = f.low ∨ 2 ^ (f.prec - 1) ≤ m) (hl : f.low ≤ e') (h : m * 2 ^ e < m' * 2 ^ e') : e ≤ e' := by
  refine Nat.le_of_not_lt fun hlt => ?_
  rcases hc with hc | hc
  · omega
  · have h1 : m' * 2 ^ e' < 2 ^ (f.prec - 1) * 2 ^ e := by
      refine Nat.lt_of_lt_of_le (Nat.mul_lt_mul_of_pos_right hm' (Nat.two_pow_pos e')) ?_
      rw [← Nat.pow_add, ← Nat.pow_add]
      exact Nat.pow_le_pow_right (by omega) (by omega)
    have h2 := Nat.mul_le_mul_right (2 ^ e) hc
    omega

theorem nearest_lt (f : FFmt) (hp : 2 ≤ f.prec) (n d x y : Nat) (hd : 0 < d) (hx : f.Nearest n d x)
    (hy : f.Nearest n d y) : ¬ x < y := by
  intro hlt
  have hxy := hx.2 y hy.1
  have hyx := hy.2 x hx.1
  have heq : dist (n * 2 ^ 1074) (x * d) = dist (n * 2 ^ 1074) (y * d) := by omega
  obtain ⟨m, e, rfl, hm, he, hc, h2⟩ := hxy.2 heq (by omega)
  obtain ⟨m', e', rfl, hm', he', hc', h2'⟩ := hyx.2 heq.symm (by omega)
  have hee := exp_mono f hp m e m' e' hm' hc he' hlt
  have hs := hx.2 _ (next_fits f hp m e hm he h2)
  obtain ⟨j, rfl⟩ : ∃ j, e' = j + e := ⟨e' - e, by omega⟩
  have ey : m' * 2 ^ (j + e) = m' * 2 ^ j * 2 ^ e := by rw [Nat.pow_add, Nat.mul_assoc]
  rw [ey] at hlt heq
  have hk : m + 1 ≤ m' * 2 ^ j := Nat.lt_of_mul_lt_mul_right hlt
  rcases Nat.lt_or_eq_of_le hk with hk | hk
  · have k1 := Nat.mul_lt_mul_of_pos_right (Nat.mul_lt_mul_of_pos_right hk (Nat.two_pow_pos e)) hd
    have k2 := Nat.mul_lt_mul_of_pos_right
      (Nat.mul_lt_mul_of_pos_right (show m < m + 1 by omega) (Nat.two_pow_pos e)) hd
    have hs1 := hs.1
    simp only [dist] at heq hs1
    omega
  · have : m' * 2 ^ j % 2 = 0 := by
      obtain ⟨i, rfl⟩ : ∃ i, m' = 2 * i := ⟨m' / 2, by omega⟩
      rw [Nat.mul_assoc]; simp
    omega

/-- There is one nearest number. -/
theorem nearest_iff (f : FFmt) (hp : 2 ≤ f.prec) (n d x : Nat) (hd : 0 < d) :
    f.Nearest n d x ↔ x = round f n d := by
  constructor
  · intro h
    have h1 := nearest_lt f hp n d _ _ hd h (round_nearest f hp n d hd)
    have h2 := nearest_lt f hp n d _ _ hd (round_nearest f hp n d hd) h
    omega
  · rintro rfl
    exact round_nearest f hp n d hd

/-- A number of the format is rounded to itself. -/
theorem round_exact (f : FFmt) (hp : 2 ≤ f.prec) (n d x : Nat) (hd : 0 < d) (e : n * unit = x * d)
    (hx : f.Fits x) : round f n d = x := by
  refine ((nearest_iff f hp n d x hd).mp ⟨hx, fun y _ => ?_⟩).symm
  have hu : n * 2 ^ 1074 = n * unit := by rw [unit]
  rw [hu, e]
  have h0 : dist (x * d) (x * d) = 0 := by simp [dist]
  rw [h0]
  refine ⟨by omega, fun h hne => ?_⟩
  simp only [dist] at h
  have : y * d = x * d := by omega
  exact absurd (Nat.eq_of_mul_eq_mul_right hd this) hne

theorem round_mono (f : FFmt) (hp : 2 ≤ f.prec) (n n' d : Nat) (hd : 0 < d) (h : n ≤ n') :
    round f n d ≤ round f n' d := by
  rcases Nat.lt_or_eq_of_le h with h | rfl
  · refine Nat.le_of_not_lt fun hlt => ?_
    have h1 := ((round_nearest f hp n d hd).2 _ (round_fits f hp n' d hd)).1
    have h2 := ((round_nearest f hp n' d hd).2 _ (round_fits f hp n d hd)).1
    have k := Nat.mul_lt_mul_of_pos_right hlt hd
    have k2 := Nat.mul_lt_mul_of_pos_right h (Nat.two_pow_pos 1074)
    generalize round f n d * d = a at *
    generalize round f n' d * d = b at *
    generalize n * 2 ^ 1074 = u at *
    generalize n' * 2 ^ 1074 = v at *
    simp only [dist] at h1 h2
    omega
  · exact Nat.le_refl _

theorem round_scale (f : FFmt) (n d k : Nat) (hk : 0 < k) : round f (n * k) (d * k) = round f n d := by
  have e : n * k * unit = n * unit * k := by
    rw [Nat.mul_assoc, Nat.mul_assoc, Nat.mul_comm k]
  have hb : last f (n * k * unit / (d * k)) = last f (n * unit / d) := by
    rw [e, Nat.mul_div_mul_right _ _ hk]
  have ed : d * k * 2 ^ last f (n * unit / d) = d * 2 ^ last f (n * unit / d) * k := by
    rw [Nat.mul_assoc, Nat.mul_assoc, Nat.mul_comm k]
  rw [round, hb, e, ed, roundEven_scale _ _ _ hk, round]

/-! ### Single and double precision -/

theorem single_ok : 2 ≤ single.prec := by decide
theorem double_ok : 2 ≤ double.prec := by decide

theorem single_fits_double (x : Nat) (h : single.Fits x) : double.Fits x := by
  obtain ⟨m, e, rfl, hm, he⟩ := h
  refine ⟨m, e, rfl, ?_, Nat.zero_le _⟩
  simp only [single, double] at hm ⊢
  omega

/-- Between two float32 numbers there is a float64 number. -/
theorem double_between (x y : Nat) (hx : single.Fits x) (hy : single.Fits y) (h : x < y) :
    ∃ z, double.Fits z ∧ x < z ∧ z < y := by
  have hl := (fits_iff single x (by decide)).mp hx
  obtain ⟨m, hm⟩ := hl
  have hlt := lt_last single x
  have hlow := low_le_last single x
  have hcan : last single x = single.low ∨ 2 ^ (single.prec - 1) ≤ m := by
    rcases Nat.lt_or_eq_of_le hlow with h1 | h1
    · right
      have h2 := le_last single x (by decide) h1
      rw [Nat.pow_add, Nat.mul_comm] at h2
      conv at h2 => rhs; rw [hm]
      exact Nat.le_of_mul_le_mul_left h2 (Nat.two_pow_pos _)
    · exact Or.inl h1.symm
  generalize last single x = e at *
  have hm2 : m < 2 ^ single.prec := by
    rw [hm, Nat.pow_add, Nat.mul_comm] at hlt
    exact Nat.lt_of_mul_lt_mul_right hlt
  obtain ⟨m', e', rfl, hm', he'⟩ := hy
  rw [hm, Nat.mul_comm] at h
  have hee := exp_mono single (by decide) m e m' e' hm' hcan he' h
  obtain ⟨j, rfl⟩ : ∃ j, e' = j + e := ⟨e' - e, by omega⟩
  rw [Nat.pow_add, ← Nat.mul_assoc] at h ⊢
  have hk : m + 1 ≤ m' * 2 ^ j := Nat.lt_of_mul_lt_mul_right h
  obtain ⟨i, rfl⟩ : ∃ i, e = i + 1 := ⟨e - 1, by simp only [single] at hlow; omega⟩
  have hp : 2 ^ (i + 1) = 2 * 2 ^ i := by rw [Nat.pow_succ, Nat.mul_comm]
  have hi := Nat.two_pow_pos i
  refine ⟨(2 * m + 1) * 2 ^ i, ⟨2 * m + 1, i, rfl, ?_, Nat.zero_le _⟩, ?_, ?_⟩
  · simp only [single, double] at hm2 ⊢; omega
  · rw [hm, hp, Nat.add_mul, Nat.mul_comm, ← Nat.mul_assoc, Nat.mul_comm m 2]; omega
  · refine Nat.lt_of_lt_of_le ?_ (Nat.mul_le_mul_right _ hk)
    rw [hp, ← Nat.mul_assoc]
    exact Nat.mul_lt_mul_of_pos_right (by omega) hi

/-- If the nearest float64 is a float32, then it is the nearest float32. -/
theorem round_single (n d : Nat) (hd : 0 < d) (h : single.Fits (round double n d)) :
    round single n d = round double n d := by
  have hn := round_nearest double double_ok n d hd
  generalize round double n d = x at *
  refine ((nearest_iff single single_ok n d x hd).mp ⟨h, fun y hy => ⟨(hn.2 y (single_fits_double y hy)).1,
    fun heq hne => ?_⟩⟩).symm
  have key : ∀ a b, single.Fits a → single.Fits b → a < b →
      dist (n * 2 ^ 1074) (a * d) = dist (n * 2 ^ 1074) (b * d) →
      dist (n * 2 ^ 1074) (x * d) = dist (n * 2 ^ 1074) (a * d) → False := by
    intro a b ha hb hab e1 e2
    obtain ⟨z, hz, h1, h2⟩ := double_between a b ha hb hab
    have h3 := (hn.2 z hz).1
    have k1 := Nat.mul_lt_mul_of_pos_right h1 hd
    have k2 := Nat.mul_lt_mul_of_pos_right h2 hd
    generalize a * d = a' at *
    generalize b * d = b' at *
    generalize z * d = z' at *
    generalize x * d = x' at *
    generalize n * 2 ^ 1074 = u at *
    simp only [dist] at *
    omega
  rcases Nat.lt_or_gt_of_ne hne with hlt | hlt
  · exact (key y x hy h hlt heq.symm heq).elim
  · exact (key x y h hy hlt heq rfl).elim

end Verif.Pgsql
