import Verif.Lemmas.DecimalText
import Verif.Props.FieldText
import Verif.Props.MetricText
import Verif.Props.Sigma
/- C69: numbers as texts. -/
namespace USiem.Props
open Spec Ieee

theorem round_neg {x q : Rat} (h : Ieee.round x = .fin q) : Ieee.round (-x) = .fin (-q) := by
  obtain ⟨h1, h2⟩ := round_fin.1 h
  exact round_fin.2 ⟨by rw [raw_neg, Rat.abs_neg]; exact h1, by rw [raw_neg, h2]⟩

theorem double_neg {q : Rat} (h : Double q) : Double (-q) := by
  obtain ⟨m, e, h1, h2, h3, rfl⟩ := h
  exact ⟨-m, e, by omega, h2, h3, by rw [Rat.intCast_neg]; grind⟩

theorem tidy_unsigned {t : Str} {r : Rat} (h : Unsigned t r) (l : Tidy.NoWaste t) : Tidy t :=
  ⟨fun _ => l, fun u e => by subst e; exact absurd h unsigned_no_minus⟩

/-- What is printed for a double other than zero: a sign and a shortest decimal. -/
theorem display_eq {q : Rat} (hd : Double q) (h0 : q ≠ 0) :
    ∃ (p : Rat) (m j : Int), Shortest p m j ∧ Double p ∧ 0 < p ∧
      (q = p ∧ display (.fin q) = plain m.toNat j ∨ q = -p ∧ display (.fin q) = '-' :: plain m.toNat j) := by
  by_cases hn : q < 0
  · refine ⟨-q, _, _, shortest_spec (double_neg hd) (by grind), double_neg hd, by grind, .inr ⟨by grind, ?_⟩⟩
    simp only [display]
    rw [if_neg h0, if_pos hn]
  · have hp : 0 < q := by grind
    refine ⟨q, _, _, shortest_spec hd hp, hd, hp, .inl ⟨rfl, ?_⟩⟩
    simp only [display]
    rw [if_neg h0, if_neg hn]

theorem plain_unsigned {m : Int} (j : Int) (h : 0 < m) : Unsigned (plain m.toNat j) (m * (10 : Rat) ^ j) := by
  have := plain_denotes m.toNat j
  rwa [show ((m.toNat : Nat) : Int) = m by omega] at this

/-- What is printed, with all that is needed about it. -/
theorem display_spec {q : Rat} (hd : Double q) :
    ∃ r, NumberText (display (.fin q)) r ∧ Tidy (display (.fin q)) ∧ Ieee.round r = .fin q ∧
      (q = 0 → r = 0) ∧
      (∀ m' j' : Int, q ≠ 0 → Ieee.round (m' * (10 : Rat) ^ j') = .fin q → ∃ m : Int, r = m * (10 : Rat) ^ j') ∧
      (∀ m' j' : Int, Ieee.round (m' * (10 : Rat) ^ j') = .fin q → (∀ m : Int, r ≠ m * (10 : Rat) ^ (j' + 1)) → (r - q).abs ≤ (m' * (10 : Rat) ^ j' - q).abs) := by
  by_cases h0 : q = 0
  · subst h0
    have u : Unsigned (display (.fin 0)) 0 := .inl ⟨0, ⟨by decide, by decide, by decide⟩, rfl⟩
    refine ⟨0, .inl u, tidy_unsigned u ⟨fun d u e => (by cases e), fun hm => absurd hm (by decide)⟩, rfl, fun _ => rfl,
      fun _ _ h => absurd rfl h, fun m' j' _ h => ?_⟩
    exact absurd (show (0 : Rat) = ((0 : Int) : Rat) * (10 : Rat) ^ (j' + 1) by rw [Rat.intCast_zero, Rat.zero_mul]) (h 0)
  · obtain ⟨p, m, j, s, hp, hpos, hc⟩ := display_eq hd h0
    have u := plain_unsigned j s.pos
    have l := plain_tidy m.toNat j (by have := s.pos; omega) (by have := s.pos; have := s.last; omega)
    -- the decimals of the number without its sign
    have mult : ∀ m' j' : Int, Ieee.round (m' * (10 : Rat) ^ j') = .fin p → ∃ c : Int, (m : Rat) * 10 ^ j = c * (10 : Rat) ^ j' :=
      fun m' j' h => ⟨_, ten_multiple (s.coarsest m' j' h) m⟩
    have near : ∀ m' j' : Int, Ieee.round (m' * (10 : Rat) ^ j') = .fin p → (∀ c : Int, (m : Rat) * 10 ^ j ≠ c * (10 : Rat) ^ (j' + 1)) →
        ((m : Rat) * 10 ^ j - p).abs ≤ (m' * (10 : Rat) ^ j' - p).abs := by
      intro m' j' h hn
      have := s.coarsest m' j' h
      by_cases hj : j' = j
      · subst hj; exact s.closest m' h
      · exact absurd (ten_multiple (e := j' + 1) (by omega) m) (hn _)
    rcases hc with ⟨rfl, e⟩ | ⟨rfl, e⟩
    · rw [e]
      exact ⟨_, .inl u, tidy_unsigned u l, s.reads, fun h => absurd h h0, fun m' j' _ => mult m' j', near⟩
    · rw [e]
      refine ⟨-(m * (10 : Rat) ^ j), .inr ⟨_, _, rfl, u, rfl⟩, ⟨fun hv => absurd rfl hv, fun v hv => ?_⟩, round_neg s.reads, fun h => absurd h h0, ?_, ?_⟩
      · cases hv
        refine ⟨l, fun hz => ?_⟩
        rw [hz] at u
        have := unsigned_unique u (.inl ⟨0, ⟨by decide, by decide, by decide⟩, rfl⟩)
        have hx := pos_of_round hpos s.reads
        rw [this] at hx
        exact absurd hx (by decide)
      · intro m' j' _ h
        obtain ⟨c, hc⟩ := mult (-m') j' (by have := round_neg h; rw [Rat.neg_neg] at this; rw [Rat.intCast_neg, show -(m' : Rat) * 10 ^ j' = -(m' * 10 ^ j') by grind]; exact this)
        exact ⟨-c, by rw [hc, Rat.intCast_neg]; grind⟩
      · intro m' j' h hn
        have := near (-m') j' (by have := round_neg h; rw [Rat.neg_neg] at this; rw [Rat.intCast_neg, show -(m' : Rat) * 10 ^ j' = -(m' * 10 ^ j') by grind]; exact this)
          (fun c hc => hn (-c) (by rw [hc, Rat.intCast_neg]; grind))
        rw [Rat.intCast_neg] at this
        rw [← Rat.abs_neg, ← Rat.abs_neg (x := (m' : Rat) * 10 ^ j' - -p)]
        rw [show -(-((m : Rat) * 10 ^ j) - -p) = (m : Rat) * 10 ^ j - p by grind, show -((m' : Rat) * 10 ^ j' - -p) = -(m' : Rat) * 10 ^ j' - p by grind]
        exact this

/-! ### Printing and reading back -/

/-- C69. The text of a finite double is a number in plain decimal notation, without superfluous zeros, and whoever reads it as a double
(rounding to nearest) gets the same double. -/
theorem C69_reads_back (q : Rat) (h : Double q) :
    ∃ r, NumberText (display (.fin q)) r ∧ Tidy (display (.fin q)) ∧ Ieee.round r = .fin q := by
  obtain ⟨r, h1, h2, h3, _⟩ := display_spec h
  exact ⟨r, h1, h2, h3⟩

/-- C69. No decimal that is read back as the double has its last digit further to the left, and of those with as many decimals none is
nearer to the double. -/
theorem C69_shortest (q r : Rat) (h : Double q) (h0 : q ≠ 0) (hr : NumberText (display (.fin q)) r) (m' j' : Int)
    (hm : Ieee.round (m' * (10 : Rat) ^ j') = .fin q) :
    (∃ m : Int, r = m * (10 : Rat) ^ j') ∧
    ((∀ m : Int, r ≠ m * (10 : Rat) ^ (j' + 1)) → (r - q).abs ≤ (m' * (10 : Rat) ^ j' - q).abs) := by
  obtain ⟨r', h1, _, _, _, h2, h3⟩ := display_spec h
  obtain rfl := number_unique h1 hr
  exact ⟨h2 m' j' h0 hm, h3 m' j' hm⟩

theorem number_head {t : Str} {r : Rat} (h : NumberText t r) : ∃ c, (c.isDigit ∨ c = '-' ∧ ∃ d u, t = '-' :: d :: u ∧ d.isDigit) ∧ t.head? = some c := by
  have key : ∀ {t : Str} {r : Rat}, Unsigned t r → ∃ c u, t = c :: u ∧ c.isDigit := by
    rintro t r (⟨a, d, -⟩ | ⟨ta, tb, a, b, rfl, d, -⟩)
    · cases t with
      | nil => exact absurd rfl d.1
      | cons c u => exact ⟨c, u, rfl, d.2.1 c List.mem_cons_self⟩
    · cases ta with
      | nil => exact absurd rfl d.1
      | cons c u => exact ⟨c, _, rfl, d.2.1 c List.mem_cons_self⟩
  rcases h with h | ⟨u, s, rfl, h, -⟩
  · obtain ⟨c, u, rfl, hc⟩ := key h
    exact ⟨c, .inl hc, rfl⟩
  · obtain ⟨c, v, rfl, hc⟩ := key h
    exact ⟨'-', .inr ⟨rfl, c, v, rfl, hc⟩, rfl⟩

theorem not_number_nan {r : Rat} : ¬ NumberText (chars% "NaN") r := by
  intro h; obtain ⟨c, hc, e⟩ := number_head h; cases e
  rcases hc with hc | ⟨hc, _⟩ <;> exact absurd hc (by decide)
theorem not_number_inf {r : Rat} : ¬ NumberText (chars% "inf") r := by
  intro h; obtain ⟨c, hc, e⟩ := number_head h; cases e
  rcases hc with hc | ⟨hc, _⟩ <;> exact absurd hc (by decide)
theorem not_number_neginf {r : Rat} : ¬ NumberText (chars% "-inf") r := by
  intro h; obtain ⟨c, hc, e⟩ := number_head h; cases e
  rcases hc with hc | ⟨_, d, u, e, hd⟩
  · exact absurd hc (by decide)
  · cases e; exact absurd hd (by decide)

/-- C69. Different doubles, infinities and NaN have different texts. -/
theorem C69_injective (x y : F64) (hx : IsF64 x) (hy : IsF64 y) (h : display x = display y) : x = y := by
  have num : ∀ q : Rat, Double q → ∃ r, NumberText (display (.fin q)) r ∧ Ieee.round r = .fin q := fun q hq => by
    obtain ⟨r, h1, _, h3⟩ := C69_reads_back q hq; exact ⟨r, h1, h3⟩
  cases x <;> cases y <;> first | rfl | (exact absurd h (by decide)) | skip
  · obtain ⟨r, h1, _⟩ := num _ hy; rw [← h] at h1; exact absurd h1 not_number_nan
  · obtain ⟨r, h1, _⟩ := num _ hy; rw [← h] at h1; exact absurd h1 not_number_neginf
  · obtain ⟨r, h1, _⟩ := num _ hx; rw [h] at h1; exact absurd h1 not_number_nan
  · obtain ⟨r, h1, _⟩ := num _ hx; rw [h] at h1; exact absurd h1 not_number_neginf
  · obtain ⟨r, h1, e1⟩ := num _ hx
    obtain ⟨r', h2, e2⟩ := num _ hy
    rw [h] at h1
    rw [← e1, ← e2, number_unique h1 h2]
  · obtain ⟨r, h1, _⟩ := num _ hx; rw [h] at h1; exact absurd h1 not_number_inf
  · obtain ⟨r, h1, _⟩ := num _ hy; rw [← h] at h1; exact absurd h1 not_number_inf

/-! ### What was written is what is printed -/

theorem normal_double : Double ((2 : Rat) ^ (-1022 : Int)) := ⟨1, -1022, by decide, by decide, by decide, by rw [Rat.intCast_one, Rat.one_mul]⟩

/-- Two decimals with the same last place that are rounded to the same double, one of them of at most fifteen digits, are the same. -/
theorem fifteen {q : Rat} {c k i : Int} (hk : 0 < k) (h15 : k < 10 ^ 15) (hn : (2 : Rat) ^ (-1022 : Int) ≤ k * (10 : Rat) ^ i)
    (h1 : Ieee.round (k * (10 : Rat) ^ i) = .fin q) (h2 : Ieee.round (c * (10 : Rat) ^ i) = .fin q) : c = k := by
  have hp := ten_pos i
  have hk' : (0 : Rat) < k := by rw [← Rat.intCast_zero, Rat.intCast_lt_intCast]; exact hk
  have hr : (0 : Rat) < k * 10 ^ i := Rat.mul_pos hk' hp
  have hq : 0 < q := by
    have h := raw_mono hn
    rw [raw_exact normal_double, round_raw h1] at h
    exact ltle (two_pos _) h
  have hcr := pos_of_round hq h2
  have e1 := (C67_error _ _ h1).1 (by rw [Rat.abs_of_nonneg (Rat.le_of_lt hr)]; exact hn)
  have e2 := C67_error _ _ h2
  rw [Rat.abs_of_nonneg (Rat.le_of_lt hr)] at e1
  rw [Rat.abs_of_nonneg (Rat.le_of_lt hcr)] at e2
  have p1 : (2 : Rat) ^ (-1075 : Int) * 2 ^ (53 : Int) = 2 ^ (-1022 : Int) := by rw [← two_add]; rfl
  rw [e53] at *
  have hlt : (k : Rat) * 10 ^ i ≤ 999999999999999 * 10 ^ i := by
    have := scaleTen_le (j := i) (show k ≤ 999999999999999 by omega)
    exact this
  -- the distance of the decimals is less than one unit of the last place
  have hd : (((c : Rat) - k) * 10 ^ i).abs < 1 * 10 ^ i := by
    have d1 : ((c : Rat) * 10 ^ i - q).abs * 9007199254740992 ≤ (c : Rat) * 10 ^ i ∨ ((c : Rat) * 10 ^ i - q).abs * 9007199254740992 ≤ k * 10 ^ i := by
      by_cases hcase : (2 : Rat) ^ (-1022 : Int) ≤ (c : Rat) * 10 ^ i
      · exact .inl (e2.1 hcase)
      · right
        have := e2.2 (by grind)
        generalize (2 : Rat) ^ (-1075 : Int) = s at *
        generalize (2 : Rat) ^ (-1022 : Int) = S at *
        grind
    have e : ((c : Rat) - k) * 10 ^ i = (c : Rat) * 10 ^ i - k * 10 ^ i := by grind
    rw [e]
    generalize (c : Rat) * 10 ^ i = a at *
    generalize (k : Rat) * 10 ^ i = b at *
    generalize (10 : Rat) ^ i = t at *
    rcases absCases (a - b) with ⟨z1, _⟩ | ⟨z1, _⟩ <;> rcases absCases (a - q) with ⟨z2, _⟩ | ⟨z2, _⟩ <;> rcases absCases (b - q) with ⟨z3, _⟩ | ⟨z3, _⟩ <;>
      rw [z1] <;> rw [z2] at d1 <;> rw [z3] at e1 <;> rcases d1 with d1 | d1 <;> grind
  apply Classical.byContradiction
  intro hne
  have g := int_gap hne
  have hs : (((c : Rat) - k) * 10 ^ i).abs = ((c : Rat) - k).abs * 10 ^ i := by
    rcases absCases ((c : Rat) - k) with ⟨z, z'⟩ | ⟨z, z'⟩
    · rw [z, Rat.abs_of_nonneg (Rat.mul_nonneg z' (Rat.le_of_lt hp))]
    · rw [z]
      have := Rat.mul_nonneg (a := -((c : Rat) - k)) (b := 10 ^ i) (by grind) (Rat.le_of_lt hp)
      rw [Rat.abs_of_nonpos (by grind)]; grind
  rw [hs] at hd
  have := mulLe hp g
  grind

/-- C69. A decimal of at most fifteen digits that is not so small that doubles lose their precision: the double nearest to it is printed as
that decimal again. -/
theorem C69_fifteen_digits (k i : Int) (h15 : k.natAbs < 10 ^ 15) (hn : k = 0 ∨ (2 : Rat) ^ (-1022 : Int) ≤ (k * (10 : Rat) ^ i).abs)
    (x : F64) (hx : Ieee.round (k * (10 : Rat) ^ i) = x) (hfin : ∃ q, x = .fin q) : NumberText (display x) (k * (10 : Rat) ^ i) := by
  obtain ⟨q, rfl⟩ := hfin
  have hd := ((C67_nearest _ _).1 hx).2.1
  by_cases hk0 : k = 0
  · subst hk0
    rw [Rat.intCast_zero, Rat.zero_mul] at hx ⊢
    cases hx
    exact .inl (.inl ⟨0, ⟨by decide, by decide, by decide⟩, rfl⟩)
  have hn := hn.resolve_left hk0
  -- positive decimals
  have key : ∀ (k : Int) (p : Rat), 0 < k → k < 10 ^ 15 → (2 : Rat) ^ (-1022 : Int) ≤ k * (10 : Rat) ^ i → Ieee.round (k * (10 : Rat) ^ i) = .fin p →
      ∀ m j : Int, Shortest p m j → (m : Rat) * 10 ^ j = k * 10 ^ i := by
    intro k p hk h15 hn hx m j s
    have hj := s.coarsest k i hx
    have e := ten_multiple hj m
    have := s.reads
    rw [e] at this ⊢
    rw [fifteen hk h15 hn hx this]
  have hq0 : q ≠ 0 := by
    rintro rfl
    obtain ⟨a, b⟩ := round_fin.1 hx
    rcases absCases ((k : Rat) * 10 ^ i) with ⟨z, z'⟩ | ⟨z, z'⟩ <;> rw [z] at hn
    · have h := raw_mono hn
      rw [raw_exact normal_double, ← b] at h
      have := two_pos (-1022)
      generalize (2 : Rat) ^ (-1022 : Int) = S at *
      grind
    · have h := raw_mono hn
      rw [raw_exact normal_double, raw_neg, ← b] at h
      have := two_pos (-1022)
      generalize (2 : Rat) ^ (-1022 : Int) = S at *
      grind
  have hp := ten_pos i
  obtain ⟨p, m, j, s, hpd, hpos, hc⟩ := display_eq hd hq0
  have u := plain_unsigned j s.pos
  rcases hc with ⟨rfl, e⟩ | ⟨rfl, e⟩
  · have hk := pos_of_mul (pos_of_round hpos hx)
    have hkr : (0 : Rat) < k * 10 ^ i := pos_of_round hpos hx
    rw [Rat.abs_of_nonneg (Rat.le_of_lt hkr)] at hn
    rw [e, ← key k q hk (by omega) hn hx m j s]
    exact .inl u
  · have hx' := round_neg hx
    rw [Rat.neg_neg, show -((k : Rat) * 10 ^ i) = ((-k : Int) : Rat) * 10 ^ i by rw [Rat.intCast_neg]; grind] at hx'
    have hkr := pos_of_round hpos hx'
    have hk := pos_of_mul hkr
    rw [← Rat.abs_neg, show -((k : Rat) * 10 ^ i) = ((-k : Int) : Rat) * 10 ^ i by rw [Rat.intCast_neg]; grind, Rat.abs_of_nonneg (Rat.le_of_lt hkr)] at hn
    have := key (-k) p hk (by omega) hn hx' m j s
    rw [e]
    refine .inr ⟨_, _, rfl, u, ?_⟩
    rw [this, Rat.intCast_neg]; grind

/-- C69. The same in terms of texts: a tidy decimal text of at most fifteen digits is what is printed for the double read from it. -/
theorem C69_same_text (t : Str) (k i : Int) (h15 : k.natAbs < 10 ^ 15) (hn : k = 0 ∨ (2 : Rat) ^ (-1022 : Int) ≤ (k * (10 : Rat) ^ i).abs)
    (ht : NumberText t (k * (10 : Rat) ^ i)) (htidy : Tidy t) (q : Rat) (hq : Ieee.round (k * (10 : Rat) ^ i) = .fin q) : display (.fin q) = t := by
  have hd := ((C67_nearest _ _).1 hq).2.1
  obtain ⟨r, _, h2, _⟩ := C69_reads_back q hd
  exact number_tidy_unique (C69_fifteen_digits k i h15 hn _ hq ⟨q, rfl⟩) ht h2 htidy

/-! ### Whole numbers -/

theorem intStr_number (n : Int) : NumberText (intStr n) n ∧ Tidy (intStr n) := by
  have d := decStr_decimal n.natAbs
  have l : Tidy.NoWaste (decStr n.natAbs) :=
    ⟨fun d u e => absurd e (decStr_lead _ d u), fun hm => absurd hm (point_not_mem (mem_decStr_isDigit _))⟩
  unfold intStr
  split
  · next hn =>
    refine ⟨.inr ⟨_, _, rfl, .inl ⟨_, d, rfl⟩, ?_⟩, fun h => absurd rfl h, fun u e => ?_⟩
    · rw [← Rat.intCast_neg]; congr 1; omega
    · cases e
      refine ⟨l, fun hz => ?_⟩
      have := d.2.2
      rw [hz] at this
      have h0 : Nat.ofDigitChars 10 ['0'] 0 = 0 := by decide
      omega
  · next hn =>
    have u : Unsigned (decStr n.natAbs) n := .inl ⟨_, d, by congr 1; omega⟩
    exact ⟨.inl u, tidy_unsigned u l⟩

/-- C69. Whole numbers below 2^53 are printed as integers are. -/
theorem C69_whole_numbers (n : Int) (h : n.natAbs < 2 ^ 53) : display (.fin n) = intStr n := by
  have hd := int_double n (by omega)
  have ex := C67_exact n hd
  obtain ⟨r, h1, h2, h3⟩ := C69_reads_back n hd
  obtain ⟨i1, i2⟩ := intStr_number n
  refine number_tidy_unique h1 ?_ h2 i2
  by_cases h0 : n = 0
  · subst h0
    have := (C67_exact _ hd)
    obtain ⟨r', h1', _, _, hz, _⟩ := display_spec hd
    have := hz rfl
    subst this
    rw [number_unique h1 h1']; exact i1
  · have e1 : (n : Rat) = n * (10 : Rat) ^ (0 : Int) := by rw [Rat.zpow_zero, Rat.mul_one]
    obtain ⟨⟨m, hm⟩, _⟩ := C69_shortest n r hd (by rw [← Rat.intCast_zero, Ne, Rat.intCast_inj]; exact h0) h1 n 0 (by rw [← e1]; exact ex)
    rw [Rat.zpow_zero, Rat.mul_one] at hm
    subst hm
    suffices m = n by rw [this]; exact i1
    have hr := round_raw h3
    by_cases hs : m.natAbs ≤ 2 ^ 53
    · rw [raw_exact (int_double m hs), Rat.intCast_inj] at hr; exact hr
    · exfalso
      rcases Int.le_total 0 m with hm | hm
      · have := raw_mono (Rat.intCast_le_intCast.2 (show (2 ^ 53 : Int) ≤ m by omega))
        rw [raw_exact (int_double _ (by decide)), hr, Rat.intCast_le_intCast] at this
        omega
      · have := raw_mono (Rat.intCast_le_intCast.2 (show m ≤ (-2 ^ 53 : Int) by omega))
        rw [hr, raw_exact (int_double (-2 ^ 53) (by decide)), Rat.intCast_le_intCast] at this
        omega

/-! ### Fields -/

/-- C69. Two fields with `f64` values are equal exactly when the values are the same; NaN is equal to itself. -/
theorem C69_field_equality (u : Ambient) (hu : u.f64Str = display) (x y : F64) (hx : IsF64 x) (hy : IsF64 y) :
    SiemField.eq u (.f64 x) (.f64 y) = true ↔ x = y := by
  rw [C41_other_iff u _ _ rfl rfl]
  simp only [SiemField.toStr, hu]
  exact ⟨C69_injective x y hx hy, fun h => by rw [h]⟩

/-- C69. A field with an `f64` and one with an integer: if they are equal, the `f64` is the one nearest to the integer; below 2^53 they are
equal exactly when they are the same number. Above, different numbers are never equal, but the same number can differ (C69_large_differs). -/
theorem C69_field_integer (u : Ambient) (hu : u.f64Str = display) (x : F64) (hx : IsF64 x) (v : BitVec 64) :
    (SiemField.eq u (.f64 x) (.u64 v) = true → x = Ieee.round v.toNat) ∧
    (SiemField.eq u (.f64 x) (.i64 v) = true → x = Ieee.round v.toInt) ∧
    (v.toNat < 2 ^ 53 → (SiemField.eq u (.f64 x) (.u64 v) = true ↔ x = .fin (v.toNat : Int))) ∧
    (v.toInt.natAbs < 2 ^ 53 → (SiemField.eq u (.f64 x) (.i64 v) = true ↔ x = .fin v.toInt)) := by
  have key : ∀ n : Int, display x = intStr n → x = Ieee.round n := by
    intro n h
    have i := (intStr_number n).1
    rw [← h] at i
    cases x with
    | nan => exact absurd i not_number_nan
    | posInf => exact absurd i not_number_inf
    | negInf => exact absurd i not_number_neginf
    | fin q =>
      obtain ⟨r, h1, _, h3⟩ := C69_reads_back q hx
      rw [← number_unique h1 i, h3]
  have en : ∀ n : Nat, intStr (n : Int) = decStr n := by
    intro n; unfold intStr; rw [if_neg (by omega)]; rfl
  have a1 : SiemField.eq u (.f64 x) (.u64 v) = true ↔ display x = intStr (v.toNat : Int) := by
    rw [C41_other_iff u _ _ rfl rfl, en]
    simp only [SiemField.toStr, hu]
  have a2 : SiemField.eq u (.f64 x) (.i64 v) = true ↔ display x = intStr v.toInt := by
    rw [C41_other_iff u _ _ rfl rfl]
    simp only [SiemField.toStr, hu]
  have small : ∀ n : Int, n.natAbs < 2 ^ 53 → (display x = intStr n ↔ x = .fin n) := fun n hn =>
    ⟨fun h => by rw [key n h]; exact C67_exact n (int_double n (by omega)), fun h => by rw [h]; exact C69_whole_numbers n hn⟩
  refine ⟨fun h => key _ (a1.1 h), fun h => key _ (a2.1 h), fun hv => ?_, fun hv => ?_⟩
  · rw [a1]; exact small _ (by omega)
  · rw [a2]; exact small _ hv

/-- C69, the limit: 2^60 as an `f64` prints with other digits than as an integer, so the two fields differ. -/
theorem C69_large_differs (u : Ambient) (hu : u.f64Str = display) :
    (SiemField.f64 (.fin (2 ^ 60 : Int))).toStr u = chars% "1152921504606847000" ∧
    SiemField.eq u (.f64 (.fin (2 ^ 60 : Int))) (.u64 (BitVec.ofNat 64 (2 ^ 60))) = false := by
  have e : display (.fin (2 ^ 60 : Int)) = chars% "1152921504606847000" := by decide +kernel
  constructor
  · simp only [SiemField.toStr, hu]; exact e
  · rw [← Bool.not_eq_true, C41_other_iff u _ _ rfl rfl]
    simp only [SiemField.toStr, hu]
    rw [e]; decide +kernel

/-- C69. A text and an `f64`: if the text equals the number, reading it gives the number; and a tidy decimal text of at most fifteen digits
equals the number it denotes. -/
theorem C69_field_text (u : Ambient) (hu : u.f64Str = display) (t : Str) (q : Rat) (hq : Double q) :
    (SiemField.eq u (.text t) (.f64 (.fin q)) = true → ∃ r, NumberText t r ∧ Ieee.round r = .fin q) ∧
    ∀ k i : Int, k.natAbs < 10 ^ 15 → (k = 0 ∨ (2 : Rat) ^ (-1022 : Int) ≤ (k * (10 : Rat) ^ i).abs) → NumberText t (k * (10 : Rat) ^ i) → Tidy t →
      Ieee.round (k * (10 : Rat) ^ i) = .fin q → SiemField.eq u (.text t) (.f64 (.fin q)) = true := by
  have e : SiemField.eq u (.text t) (.f64 (.fin q)) = true ↔ t = display (.fin q) := by
    simp [SiemField.eq, SiemField.toStr, hu]
  refine ⟨fun h => ?_, fun k i h1 h2 h3 h4 h5 => ?_⟩
  · obtain ⟨r, a, _, b⟩ := C69_reads_back q hq
    rw [e.1 h]; exact ⟨r, a, b⟩
  · exact e.2 (C69_same_text t k i h1 h2 h3 h4 q h5).symm

/-- C69. The list made of an `f64` has its text as the only element. -/
theorem C69_field_list (u : Ambient) (hu : u.f64Str = display) (x : F64) : (SiemField.f64 x).toArray u = .ok [display x] := by
  simp only [SiemField.toArray, hu]

/-- C69, hashing. A whole number from 0 to 2^53 hashes alike as `f64`, `u64` and `i64`, as equal values should. -/
theorem C69_hash_whole (n : Nat) (h : n < 2 ^ 53) :
    (SiemField.f64 (.fin (n : Int))).hashFeed = (SiemField.u64 (BitVec.ofNat 64 n)).hashFeed ∧
    (SiemField.f64 (.fin (n : Int))).hashFeed = (SiemField.i64 (BitVec.ofNat 64 n)).hashFeed := by
  have t : F64.trunc ((n : Int) : Rat) = n := by
    unfold F64.trunc; rw [Rat.num_intCast, Rat.den_intCast]; exact Int.tdiv_one _
  have : SiemField.f64AsU64 (.fin (n : Int)) = BitVec.ofNat 64 n := by
    simp only [SiemField.f64AsU64, t]
    rw [if_neg (by omega), if_neg (by omega)]
    rfl
  simp only [SiemField.hashFeed, this, and_self]

/-- C69, the disagreement with `Hash`: every negative whole number above -2^53 is equal as `f64` and as `i64`, but hashes differently, so a
hash map holds both as different keys. -/
theorem C69_hash_negative (u : Ambient) (hu : u.f64Str = display) (n : Int) (hn : n < 0) (h : n.natAbs < 2 ^ 53) :
    SiemField.eq u (.f64 (.fin n)) (.i64 (BitVec.ofInt 64 n)) = true ∧
    (SiemField.f64 (.fin n)).hashFeed ≠ (SiemField.i64 (BitVec.ofInt 64 n)).hashFeed := by
  have hi : (BitVec.ofInt 64 n).toInt = n := by
    rw [BitVec.toInt_ofInt, Int.bmod_eq_of_le (by omega) (by omega)]
  constructor
  · rw [(C69_field_integer u hu (.fin n) (int_double n (by omega)) _).2.2.2 (by rw [hi]; exact h), hi]
  · have t : F64.trunc (n : Rat) = n := by
      unfold F64.trunc; rw [Rat.num_intCast, Rat.den_intCast]; exact Int.tdiv_one _
    have : SiemField.f64AsU64 (.fin n) = 0 := by
      simp only [SiemField.f64AsU64, t]
      rw [if_pos hn]
    simp only [SiemField.hashFeed, this]
    intro hc
    injection hc with hc
    rw [← hc] at hi
    have : (0 : BitVec 64).toInt = 0 := by decide
    omega

/-! ### Metrics -/

/-- C69. A value kept in units of 1/100000, as gauges and histogram sums are, is printed exactly, as long as it has at most fifteen digits. -/
theorem C69_stored_exact (n : Int) (h : n.natAbs < 10 ^ 15) :
    NumberText (display (normalizeI64 Ieee.round n)) (n / 100000) ∧ Tidy (display (normalizeI64 Ieee.round n)) := by
  have e : (n : Rat) / 100000 = n * (10 : Rat) ^ (-5 : Int) := by
    rw [show (10 : Rat) ^ (-5 : Int) = 1 / 100000 by decide +kernel]; grind
  have ex : Ieee.round (n : Rat) = .fin n := C67_exact n (int_double n (by omega))
  have hv : normalizeI64 Ieee.round n = Ieee.round (n * (10 : Rat) ^ (-5 : Int)) := by
    simp only [normalizeI64, ex, F64.divConst, e]
  have hb : ((n : Rat) * (10 : Rat) ^ (-5 : Int)).abs < overflowBound := by
    have h1 : (n : Rat).abs ≤ 1000000000000000 := by
      rw [natAbs_cast, show (1000000000000000 : Rat) = ((1000000000000000 : Int) : Rat) from rfl, Rat.intCast_le_intCast]; omega
    have h2 : ((n : Rat) * (10 : Rat) ^ (-5 : Int)).abs ≤ 1000000000000000 := by
      rw [← e]
      rcases absCases (n : Rat) with ⟨z, z'⟩ | ⟨z, z'⟩ <;> rcases absCases ((n : Rat) / 100000) with ⟨w, _⟩ | ⟨w, _⟩ <;> grind
    refine lelt h2 ?_
    unfold overflowBound
    have h3 := two_one_le 970
    rw [show ((970 : Nat) : Int) = 970 from rfl] at h3
    generalize (2 : Rat) ^ (970 : Int) = B at *
    grind
  obtain ⟨q, hq⟩ : ∃ q, Ieee.round ((n : Rat) * (10 : Rat) ^ (-5 : Int)) = .fin q :=
    ⟨_, round_fin.2 ⟨(raw_overflow_abs _).2 hb, rfl⟩⟩
  have hn : n = 0 ∨ (2 : Rat) ^ (-1022 : Int) ≤ ((n : Rat) * (10 : Rat) ^ (-5 : Int)).abs := by
    by_cases h0 : n = 0
    · exact .inl h0
    · right
      refine Rat.le_trans (two_le (show (-1022 : Int) ≤ -17 by decide)) ?_
      rw [show (2 : Rat) ^ (-17 : Int) = 1 / 131072 by decide +kernel, ← e]
      have h1 : (1 : Rat) ≤ (n : Rat).abs := by
        rw [natAbs_cast, ← Rat.intCast_one, Rat.intCast_le_intCast]; omega
      rcases absCases (n : Rat) with ⟨z, z'⟩ | ⟨z, z'⟩ <;> rcases absCases ((n : Rat) / 100000) with ⟨w, _⟩ | ⟨w, _⟩ <;> grind
  rw [hv, e]
  refine ⟨C69_fifteen_digits n (-5) h hn _ rfl ⟨q, hq⟩, ?_⟩
  obtain ⟨r, _, t, _⟩ := C69_reads_back q ((C67_nearest _ _).1 hq).2.1
  rw [hq]; exact t

/-- C69. The Prometheus text of gauges: on the line of a gauge stands, exactly and without superfluous zeros, the value it holds. -/
theorem C69_gauge_lines (h : Heap) (v : List Series) (name description : Str) (help : Bool)
    (hv : ∀ c ∈ v, (h.load c.metric).toInt.natAbs < 10 ^ 15) :
    ∃ lines, AllPairs (fun c line => ∃ t, writtenLine name c.labels t line ∧ NumberText t ((h.load c.metric).toInt / 100000) ∧ Tidy t) v lines ∧
      GaugeVec.encode Ieee.round display h v name description help = unlines (
        (if help then [chars% "# HELP " ++ name ++ chars% " " ++ description] else []) ++
        [chars% "# TYPE " ++ name ++ chars% " gauge"] ++ lines) := by
  obtain ⟨lines, h1, h2⟩ := C19_gauges_lines Ieee.round display h v name description help
  refine ⟨lines, ?_, h2⟩
  clear h2
  induction h1 with
  | nil => exact .nil
  | cons hw _ ih =>
    exact .cons ⟨_, hw, C69_stored_exact _ (hv _ List.mem_cons_self)⟩ (ih fun c hc => hv c (List.mem_cons_of_mem _ hc))

/-- C69. A gauge set to a whole number and then changed by whole numbers is printed as the integer they add up to. -/
theorem C69_gauge_whole (h0 : Heap) (labelss : List Labels) (before after : List GaugeCall) (k : Int) (ns : List Int) (l : Labels)
    (hl : l ∈ labelss) (ha : AllPairs (WholeChange l) after ns) (hb : k.natAbs + (ns.map Int.natAbs).sum ≤ 90071992547) :
    let (h, v) := GaugeVec.new h0 labelss
    (withLabels v l).map (fun c => display (Gauge.get Ieee.round
      (runAll h ((before ++ .set l (.fin k) :: after).flatMap (GaugeCall.steps Ieee.round v))) c)) = some (intStr (k + ns.sum)) := by
  have := C14_gauge_whole_numbers_exact Ieee.round C67_small_integers h0 labelss before after k ns l hl ha hb
  simp only at this ⊢
  have hs : ∀ ns : List Int, ns.sum.natAbs ≤ (ns.map Int.natAbs).sum := by
    intro ns
    induction ns with
    | nil => exact Nat.le_refl _
    | cons a t ih => rw [List.sum_cons, List.map_cons, List.sum_cons]; omega
  have := congrArg (Option.map display) this
  rw [Option.map_map, Option.map_some, C69_whole_numbers _ (by have := hs ns; omega)] at this
  exact this

/-- C69. The sum line of a histogram shows the sum exactly. -/
theorem C69_histogram_sum (h : Heap) (x : Histogram) (name : Str) (hc : x.getSampleCount h ≠ 0) (hs : (h.load x.sum).toInt.natAbs < 10 ^ 15) :
    ∃ (t sum : Str) (pre post : List Str), writtenLine (name ++ chars% "_sum") x.labels t sum ∧ NumberText t ((h.load x.sum).toInt / 100000) ∧ Tidy t ∧
      x.encode Ieee.round display h name = unlines (pre ++ sum :: post) ∧ pre.length = x.observations.length ∧ post.length = 1 := by
  obtain ⟨sum, count, h1, h2, h3⟩ := (C19_histogram_lines Ieee.round display h x name).2 hc
  obtain ⟨a, b⟩ := C69_stored_exact _ hs
  exact ⟨_, sum, _, [count], h1, a, b, h3, by simp, rfl⟩

/-! ### Rules -/

/-- C69. A number in a Sigma rule, written as a tidy decimal of at most fifteen digits, is searched for as it was written. -/
theorem C69_rule_number (u : Ambient) (hu : u.f64Str = display) (t : Str) (k i : Int) (h15 : k.natAbs < 10 ^ 15)
    (hn : k = 0 ∨ (2 : Rat) ^ (-1022 : Int) ≤ (k * (10 : Rat) ^ i).abs)
    (ht : NumberText t (k * (10 : Rat) ^ i)) (htidy : Tidy t) (q : Rat) (hq : Ieee.round (k * (10 : Rat) ^ i) = .fin q) :
    Shown u (.float (.fin q)) t := by
  have := Shown.float (u := u) (.fin q)
  rwa [hu, C69_same_text t k i h15 hn ht htidy q hq] at this

/-! ### The hypotheses can be met -/

theorem tidy_029 : Tidy (chars% "-0.29") :=
  ⟨fun h => absurd rfl h, fun u e => by
    cases e
    exact ⟨⟨fun d u e => by cases e; rfl, fun _ => by decide⟩, by decide⟩⟩
theorem number_029 : NumberText (chars% "-0.29") ((-29 : Int) * (10 : Rat) ^ (-2 : Int)) :=
  .inr ⟨_, 29 / 100, rfl, .inr ⟨['0'], chars% "29", 0, 29, rfl, ⟨by decide, by decide, by decide⟩, ⟨by decide, by decide, by decide⟩, by decide +kernel⟩, by decide +kernel⟩
example : ∃ q, Ieee.round ((-29 : Int) * (10 : Rat) ^ (-2 : Int)) = .fin q ∧ display (.fin q) = chars% "-0.29" := by
  refine ⟨-5224175567749775 / 18014398509481984, by decide +kernel, ?_⟩
  exact C69_same_text _ (-29) (-2) (by decide) (.inr (by decide +kernel)) number_029 tidy_029 _ (by decide +kernel)
example : IsF64 (.fin (-3 / 4)) ∧ IsF64 .nan := ⟨⟨-3, -2, by decide, by decide, by decide, by decide +kernel⟩, trivial⟩
example : ∃ u : Ambient, u.f64Str = display := ⟨⟨display, fun _ => [], Ieee.round, id⟩, rfl⟩
example : ¬ Tidy (chars% "0.50") ∧ ¬ Tidy (chars% "007") ∧ ¬ Tidy (chars% "-0") :=
  ⟨fun h => (h.1 (by decide)).2 (by decide) rfl, fun h => absurd ((h.1 (by decide)).1 '0' ['7'] rfl) (by decide), fun h => (h.2 ['0'] rfl).2 rfl⟩
example : AllPairs (WholeChange []) [.inc [], .decBy [] (.fin 7)] [1, -7] ∧ (3 : Int).natAbs + (([1, -7] : List Int).map Int.natAbs).sum ≤ 90071992547 := by
  refine ⟨.cons ?_ (.cons ?_ .nil), by decide⟩
  · simp [WholeChange]
  · simp only [WholeChange]; rw [if_pos trivial]; decide +kernel
example : ((Heap.load [5#64] 0).toInt).natAbs < 10 ^ 15 := by decide

end USiem.Props
