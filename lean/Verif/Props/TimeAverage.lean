import Verif.Props.Stats
/-
Property C51: averages over calendar periods.
-/
set_option autoImplicit false
namespace Verif

/-- A date of the calendar. -/
def DateTime.Valid (t : DateTime) : Prop := 1 ≤ t.month ∧ t.month ≤ 12 ∧ 1 ≤ t.day ∧ t.day ≤ daysInMonth t.year t.month ∧ t.hour < 24

/-! ### The calendar as a count of hours -/

theorem daysInMonth_pos (y m : Nat) : 1 ≤ daysInMonth y m := by
  unfold daysInMonth; split
  · split <;> omega
  · split <;> omega

/-- Months since year 0. -/
def monthOrd (t : DateTime) : Nat := 12 * t.year + (t.month - 1)
def monthDays (k : Nat) : Nat := daysInMonth (k / 12) (k % 12 + 1)
/-- Days before month `k`. -/
def monthStart : Nat → Nat
  | 0 => 0
  | k + 1 => monthStart k + monthDays k
def dayOrd (t : DateTime) : Nat := monthStart (monthOrd t) + (t.day - 1)
def hourOrd (t : DateTime) : Nat := 24 * dayOrd t + t.hour

theorem monthStart_mono {k k' : Nat} (h : k < k') : monthStart k + monthDays k ≤ monthStart k' := by
  induction k' with
  | zero => omega
  | succ k' ih =>
    by_cases hk : k = k'
    · subst hk; exact le_rfl
    · have := ih (by omega)
      simp only [monthStart]; omega

theorem monthStart_lt {k k' : Nat} (h : k < k') : monthStart k < monthStart k' := by
  have := monthStart_mono h
  have := daysInMonth_pos (k / 12) (k % 12 + 1)
  unfold monthDays at *
  omega

theorem monthDays_ord {t : DateTime} (h : t.Valid) : monthDays (monthOrd t) = daysInMonth t.year t.month := by
  obtain ⟨h1, h2, -⟩ := h
  unfold monthDays monthOrd
  have e1 : (12 * t.year + (t.month - 1)) / 12 = t.year := by omega
  have e2 : (12 * t.year + (t.month - 1)) % 12 + 1 = t.month := by omega
  rw [e1, e2]

theorem dayOrd_lt {t : DateTime} (h : t.Valid) : dayOrd t < monthStart (monthOrd t + 1) := by
  have := monthDays_ord h
  obtain ⟨-, -, h3, h4, -⟩ := h
  unfold dayOrd
  simp only [monthStart]
  omega

theorem dayOrd_ge (t : DateTime) : monthStart (monthOrd t) ≤ dayOrd t := by unfold dayOrd; omega

theorem monthOrd_of_dayOrd {a b : DateTime} (ha : a.Valid) (hb : b.Valid) (h : dayOrd a = dayOrd b) : monthOrd a = monthOrd b := by
  by_contra hne
  rcases Nat.lt_or_gt_of_ne hne with hlt | hgt
  · have := dayOrd_lt ha
    have := dayOrd_ge b
    have : monthStart (monthOrd a + 1) ≤ monthStart (monthOrd b) := monthStart_mono hlt
    omega
  · have := dayOrd_lt hb
    have := dayOrd_ge a
    have : monthStart (monthOrd b + 1) ≤ monthStart (monthOrd a) := monthStart_mono hgt
    omega

theorem dayOrd_lt_iff {a b : DateTime} (ha : a.Valid) (hb : b.Valid) : dayOrd a < dayOrd b ↔ monthOrd a < monthOrd b ∨ monthOrd a = monthOrd b ∧ a.day < b.day := by
  have a3 := ha.2.2.1
  have b3 := hb.2.2.1
  rcases Nat.lt_trichotomy (monthOrd a) (monthOrd b) with h | h | h
  · have := dayOrd_lt ha
    have := dayOrd_ge b
    have : monthStart (monthOrd a + 1) ≤ monthStart (monthOrd b) := monthStart_mono h
    exact ⟨fun _ => .inl h, fun _ => by omega⟩
  · have e : dayOrd a < dayOrd b ↔ a.day < b.day := by unfold dayOrd; rw [h]; omega
    rw [e]; constructor
    · intro h'; exact .inr ⟨h, h'⟩
    · rintro (h' | h'); omega; exact h'.2
  · have := dayOrd_lt hb
    have := dayOrd_ge a
    have : monthStart (monthOrd b + 1) ≤ monthStart (monthOrd a) := monthStart_mono h
    constructor
    · intro _; omega
    · rintro (h' | h') <;> omega

theorem dayOrd_eq_iff {a b : DateTime} (ha : a.Valid) (hb : b.Valid) : dayOrd a = dayOrd b ↔ a.year = b.year ∧ a.month = b.month ∧ a.day = b.day := by
  constructor
  · intro h
    have hm := monthOrd_of_dayOrd ha hb h
    obtain ⟨a1, a2, a3, -⟩ := ha
    obtain ⟨b1, b2, b3, -⟩ := hb
    have hd : a.day = b.day := by unfold dayOrd at h; rw [hm] at h; omega
    unfold monthOrd at hm
    exact ⟨by omega, by omega, hd⟩
  · rintro ⟨h1, h2, h3⟩; unfold dayOrd monthOrd; rw [h1, h2, h3]

/-- Dates are compared as counts of hours, then of microseconds. -/
theorem lt_iff {a b : DateTime} (ha : a.Valid) (hb : b.Valid) : a.lt b = true ↔ hourOrd a < hourOrd b ∨ hourOrd a = hourOrd b ∧ a.micro < b.micro := by
  have h1 := dayOrd_lt_iff ha hb
  have h2 := dayOrd_eq_iff ha hb
  have a5 := ha.2.2.2.2
  have b5 := hb.2.2.2.2
  have hm : monthOrd a < monthOrd b ↔ a.year < b.year ∨ a.year = b.year ∧ a.month < b.month := by
    obtain ⟨a1, a2, -⟩ := ha
    obtain ⟨b1, b2, -⟩ := hb
    unfold monthOrd; omega
  have hme : monthOrd a = monthOrd b ↔ a.year = b.year ∧ a.month = b.month := by
    obtain ⟨a1, a2, -⟩ := ha
    obtain ⟨b1, b2, -⟩ := hb
    unfold monthOrd; omega
  have hh : hourOrd a < hourOrd b ↔ dayOrd a < dayOrd b ∨ dayOrd a = dayOrd b ∧ a.hour < b.hour := by unfold hourOrd; omega
  have hhe : hourOrd a = hourOrd b ↔ dayOrd a = dayOrd b ∧ a.hour = b.hour := by unfold hourOrd; omega
  rw [hh, hhe, h1, h2, hm, hme]
  simp only [DateTime.lt, decide_eq_true_eq]
  constructor
  · rintro (h | ⟨h, h' | ⟨h', h'' | ⟨h'', h3 | ⟨h3, h4⟩⟩⟩⟩)
    · exact .inl (.inl (.inl (.inl h)))
    · exact .inl (.inl (.inl (.inr ⟨h, h'⟩)))
    · exact .inl (.inl (.inr ⟨⟨h, h'⟩, h''⟩))
    · exact .inl (.inr ⟨⟨h, h', h''⟩, h3⟩)
    · exact .inr ⟨⟨⟨h, h', h''⟩, h3⟩, h4⟩
  · rintro ((((h | h) | h) | h) | h)
    · exact .inl h
    · exact .inr ⟨h.1, .inl h.2⟩
    · exact .inr ⟨h.1.1, .inr ⟨h.1.2, .inl h.2⟩⟩
    · exact .inr ⟨h.1.1, .inr ⟨h.1.2.1, .inr ⟨h.1.2.2, .inl h.2⟩⟩⟩
    · exact .inr ⟨h.1.1.1, .inr ⟨h.1.1.2.1, .inr ⟨h.1.1.2.2, .inr ⟨h.1.2, h.2⟩⟩⟩⟩

theorem date_ext {a b : DateTime} (ha : a.Valid) (hb : b.Valid) (h : hourOrd a = hourOrd b) (hm : a.micro = b.micro) : a = b := by
  have hd : dayOrd a = dayOrd b := by
    have a5 := ha.2.2.2.2
    have b5 := hb.2.2.2.2
    unfold hourOrd at h; omega
  obtain ⟨h1, h2, h3⟩ := (dayOrd_eq_iff ha hb).1 hd
  have h4 : a.hour = b.hour := by unfold hourOrd at h; omega
  cases a; cases b; simp_all

/-- The number of the period of a date, and the first hour of period `n`. -/
def periodOrd (p : Period) (t : DateTime) : Nat :=
  match p with
  | .hour => hourOrd t
  | .day => dayOrd t
  | .month => monthOrd t
  | .year => t.year
def periodStart (p : Period) (n : Nat) : Nat :=
  match p with
  | .hour => n
  | .day => 24 * n
  | .month => 24 * monthStart n
  | .year => 24 * monthStart (12 * n)

theorem periodStart_mono (p : Period) {n n' : Nat} (h : n < n') : periodStart p n < periodStart p n' := by
  cases p <;> simp only [periodStart]
  · exact h
  · omega
  · have := monthStart_lt h; omega
  · have := monthStart_lt (show 12 * n < 12 * n' by omega); omega

theorem periodStart_le {p : Period} {n n' : Nat} (h : n ≤ n') : periodStart p n ≤ periodStart p n' := by
  rcases Nat.lt_or_eq_of_le h with h | rfl
  · exact (periodStart_mono p h).le
  · exact le_rfl

theorem period_bounds (p : Period) {t : DateTime} (h : t.Valid) : periodStart p (periodOrd p t) ≤ hourOrd t ∧ hourOrd t < periodStart p (periodOrd p t + 1) := by
  have h5 := h.2.2.2.2
  have d1 := dayOrd_lt h
  have d2 := dayOrd_ge t
  cases p <;> simp only [periodStart, periodOrd]
  · omega
  · unfold hourOrd; omega
  · unfold hourOrd; omega
  · obtain ⟨h1, h2, -⟩ := h
    have e1 : 12 * t.year ≤ monthOrd t := by unfold monthOrd; omega
    have e2 : monthOrd t + 1 ≤ 12 * (t.year + 1) := by unfold monthOrd; omega
    have q1 : monthStart (12 * t.year) ≤ monthStart (monthOrd t) := by
      rcases Nat.lt_or_eq_of_le e1 with h | h
      · exact (monthStart_lt h).le
      · rw [h]
    have q2 : monthStart (monthOrd t + 1) ≤ monthStart (12 * (t.year + 1)) := by
      rcases Nat.lt_or_eq_of_le e2 with h | h
      · exact (monthStart_lt h).le
      · rw [h]
    unfold hourOrd; omega

theorem floor_facts (p : Period) {t : DateTime} (h : t.Valid) :
    (t.floor p).Valid ∧ hourOrd (t.floor p) = periodStart p (periodOrd p t) ∧ (t.floor p).micro = 0 ∧ periodOrd p (t.floor p) = periodOrd p t ∧ (t.floor p).floor p = t.floor p := by
  obtain ⟨h1, h2, h3, h4, h5⟩ := h
  have hd := daysInMonth_pos t.year t.month
  cases p
  · refine ⟨⟨h1, h2, h3, h4, h5⟩, rfl, rfl, rfl, rfl⟩
  · refine ⟨⟨h1, h2, h3, h4, by simp [DateTime.floor]⟩, rfl, rfl, rfl, rfl⟩
  · refine ⟨⟨h1, h2, by simp [DateTime.floor], by simpa [DateTime.floor] using hd, by simp [DateTime.floor]⟩, ?_, rfl, rfl, rfl⟩
    simp [hourOrd, dayOrd, DateTime.floor, periodStart, periodOrd, monthOrd]
  · refine ⟨⟨by simp [DateTime.floor], by simp [DateTime.floor], by simp [DateTime.floor], by simpa [DateTime.floor] using daysInMonth_pos t.year 1, by simp [DateTime.floor]⟩, ?_, rfl, rfl, rfl⟩
    simp [hourOrd, dayOrd, DateTime.floor, periodStart, periodOrd, monthOrd]

theorem nextDay_facts {t : DateTime} (h : t.Valid) : t.nextDay.Valid ∧ dayOrd t.nextDay = dayOrd t + 1 ∧ t.nextDay.hour = t.hour ∧ t.nextDay.micro = t.micro := by
  have hmd := monthDays_ord h
  obtain ⟨h1, h2, h3, h4, h5⟩ := h
  unfold DateTime.nextDay
  split
  · rename_i hlt
    exact ⟨⟨h1, h2, by simp, by simp only; omega, h5⟩, by simp only [dayOrd, monthOrd]; omega, rfl, rfl⟩
  · rename_i hge
    have hday : t.day = daysInMonth t.year t.month := by omega
    split
    · rename_i hm
      refine ⟨⟨by simp, by simp only; omega, by simp, by simpa using daysInMonth_pos t.year (t.month + 1), h5⟩, ?_, rfl, rfl⟩
      simp only [dayOrd, monthOrd]
      have e : 12 * t.year + (t.month + 1 - 1) = monthOrd t + 1 := by unfold monthOrd; omega
      rw [e]; simp only [monthStart]
      unfold monthOrd at hmd ⊢
      omega
    · rename_i hm
      refine ⟨⟨by simp, by simp, by simp, by simpa using daysInMonth_pos (t.year + 1) 1, h5⟩, ?_, rfl, rfl⟩
      simp only [dayOrd, monthOrd]
      have e : 12 * (t.year + 1) + (1 - 1) = monthOrd t + 1 := by unfold monthOrd; omega
      rw [e]; simp only [monthStart]
      unfold monthOrd at hmd ⊢
      omega

/-- The number of a date in the proleptic Gregorian calendar, by the usual closed formula (years that begin in March; 365.2425 days a year, 30.6 days a month). -/
def DateTime.gregorian (t : DateTime) : Int :=
  let a : Int := if t.month ≤ 2 then 1 else 0
  let y : Int := t.year - a
  let m : Int := t.month + 12 * a - 3
  365 * y + y / 4 - y / 100 + y / 400 + (153 * m + 2) / 5 + t.day

/-- The days the periods are made of are the days of the calendar: the day after a date has the next number, so days, months and years begin when they do in the calendar. -/
theorem C51_calendar {t : DateTime} (h : t.Valid) : t.nextDay.Valid ∧ t.nextDay.gregorian = t.gregorian + 1 := by
  refine ⟨(nextDay_facts h).1, ?_⟩
  obtain ⟨h1, h2, h3, h4, -⟩ := h
  rcases t with ⟨y, m, d, hh, mm⟩
  simp only at h1 h2 h3 h4
  unfold DateTime.nextDay DateTime.gregorian
  simp only
  by_cases hlt : d < daysInMonth y m
  · simp only [hlt, if_true]; push_cast; ring
  · have hd : d = daysInMonth y m := by omega
    simp only [hlt, if_false]
    subst hd
    have hleap : isLeap y = true ↔ (y % 4 = 0 ∧ y % 100 ≠ 0) ∨ y % 400 = 0 := by simp [isLeap]
    unfold daysInMonth
    obtain rfl | rfl | rfl | rfl | rfl | rfl | rfl | rfl | rfl | rfl | rfl | rfl : m = 1 ∨ m = 2 ∨ m = 3 ∨ m = 4 ∨ m = 5 ∨ m = 6 ∨ m = 7 ∨ m = 8 ∨ m = 9 ∨ m = 10 ∨ m = 11 ∨ m = 12 := by
      omega
    all_goals simp only [Nat.reduceEqDiff, Nat.reduceLT, Nat.reduceLeDiff, if_true, if_false, or_self, or_true, true_or, or_false, false_or, Nat.lt_irrefl]
    case inr.inl =>
      by_cases hl : isLeap y = true
      · rw [if_pos hl]; rw [hleap] at hl; push_cast; omega
      · rw [if_neg hl]; rw [hleap] at hl; push_cast; omega
    all_goals push_cast; omega


theorem next_facts (p : Period) {t : DateTime} (h : t.Valid) (hf : t.floor p = t) :
    (t.next p).Valid ∧ (t.next p).floor p = t.next p ∧ periodOrd p (t.next p) = periodOrd p t + 1 := by
  obtain ⟨n1, n2, n3, n4⟩ := nextDay_facts h
  have hv := h
  obtain ⟨h1, h2, h3, h4, h5⟩ := h
  cases p
  · have hm : t.micro = 0 := by rw [← hf]; rfl
    simp only [DateTime.next]
    split
    · refine ⟨⟨h1, h2, h3, h4, by simp only; omega⟩, by simp [DateTime.floor, hm], ?_⟩
      simp only [periodOrd, hourOrd, dayOrd, monthOrd]; omega
    · refine ⟨⟨n1.1, n1.2.1, n1.2.2.1, n1.2.2.2.1, by simp⟩, by simp [DateTime.floor, n4, hm], ?_⟩
      have e : dayOrd { t.nextDay with hour := 0 } = dayOrd t + 1 := n2
      simp only [periodOrd, hourOrd, e]; omega
  · have hm : t.micro = 0 := by rw [← hf]; rfl
    have hh : t.hour = 0 := by rw [← hf]; rfl
    simp only [DateTime.next]
    refine ⟨n1, ?_, n2⟩
    rw [hh] at n3; rw [hm] at n4
    simp only [DateTime.floor]
    generalize t.nextDay = u at *
    cases u; simp_all
  · have hm : t.micro = 0 := by rw [← hf]; rfl
    have hh : t.hour = 0 := by rw [← hf]; rfl
    have hd : t.day = 1 := by rw [← hf]; rfl
    simp only [DateTime.next]
    split
    · refine ⟨⟨by simp, by simp only; omega, h3, by simpa [hd] using daysInMonth_pos t.year (t.month + 1), h5⟩, by simp [DateTime.floor, hm, hh, hd], ?_⟩
      simp only [periodOrd, monthOrd]; omega
    · refine ⟨⟨by simp, by simp, h3, by simpa [hd] using daysInMonth_pos (t.year + 1) 1, h5⟩, by simp [DateTime.floor, hm, hh, hd], ?_⟩
      simp only [periodOrd, monthOrd]; omega
  · have hm : t.micro = 0 := by rw [← hf]; rfl
    have hh : t.hour = 0 := by rw [← hf]; rfl
    have hd : t.day = 1 := by rw [← hf]; rfl
    have hmo : t.month = 1 := by rw [← hf]; rfl
    simp only [DateTime.next]
    refine ⟨⟨h1, h2, h3, by simpa [hd, hmo] using daysInMonth_pos (t.year + 1) 1, h5⟩, by simp [DateTime.floor, hm, hh, hd, hmo], rfl⟩

theorem start_unique (p : Period) {a b : DateTime} (ha : a.Valid) (hb : b.Valid) (fa : a.floor p = a) (fb : b.floor p = b) (h : periodOrd p a = periodOrd p b) : a = b := by
  obtain ⟨-, a2, a3, -⟩ := floor_facts p ha
  obtain ⟨-, b2, b3, -⟩ := floor_facts p hb
  rw [fa] at a2 a3
  rw [fb] at b2 b3
  exact date_ext ha hb (by rw [a2, b2, h]) (by rw [a3, b3])

/-- A date is strictly between the beginnings of a period and of the next exactly when it is in the period and not its beginning. -/
theorem inside_iff (p : Period) {s t : DateTime} (hs : s.Valid) (fs : s.floor p = s) (ht : t.Valid) :
    (s.lt t && t.lt (s.next p)) = true ↔ t.floor p = s ∧ t ≠ s := by
  obtain ⟨n1, n2, n3⟩ := next_facts p hs fs
  obtain ⟨-, s2, s3, -⟩ := floor_facts p hs
  rw [fs] at s2 s3
  obtain ⟨-, m2, m3, -⟩ := floor_facts p n1
  rw [n2] at m2 m3
  rw [n3] at m2
  obtain ⟨f1, f2, f3, f4, f5⟩ := floor_facts p ht
  obtain ⟨b1, b2⟩ := period_bounds p ht
  rw [Bool.and_eq_true, lt_iff hs ht, lt_iff ht n1, s2, s3, m2, m3]
  constructor
  · rintro ⟨h1, h2⟩
    have hord : periodOrd p t = periodOrd p s := by
      by_contra hne
      rcases Nat.lt_or_gt_of_ne hne with hlt | hgt
      · have := periodStart_le (p := p) (show periodOrd p t + 1 ≤ periodOrd p s from hlt)
        omega
      · have := periodStart_le (p := p) (show periodOrd p s + 1 ≤ periodOrd p t from hgt)
        omega
    refine ⟨start_unique p f1 hs f5 fs (by rw [f4, hord]), ?_⟩
    rintro rfl
    omega
  · rintro ⟨h1, h2⟩
    have hord : periodOrd p t = periodOrd p s := by rw [← f4, h1]
    rw [hord] at b1 b2
    refine ⟨?_, .inl b2⟩
    rcases Nat.lt_or_eq_of_le b1 with h | h
    · exact .inl h
    · refine .inr ⟨h, ?_⟩
      by_contra hm
      exact h2 (date_ext ht hs (by rw [s2, h]) (by rw [s3]; omega))

/-- The beginning of the `i`-th period from `s`. -/
def laterPeriod (p : Period) (s : DateTime) : Nat → DateTime
  | 0 => s
  | i + 1 => laterPeriod p (s.next p) i

theorem laterPeriod_facts (p : Period) (i : Nat) : ∀ {s : DateTime}, s.Valid → s.floor p = s →
    (laterPeriod p s i).Valid ∧ (laterPeriod p s i).floor p = laterPeriod p s i ∧ periodOrd p (laterPeriod p s i) = periodOrd p s + i := by
  induction i with
  | zero => intro s h1 h2; exact ⟨h1, h2, rfl⟩
  | succ i ih =>
    intro s h1 h2
    obtain ⟨n1, n2, n3⟩ := next_facts p h1 h2
    obtain ⟨k1, k2, k3⟩ := ih n1 n2
    exact ⟨k1, k2, by simp only [laterPeriod]; rw [k3, n3]; omega⟩

theorem start_lt_iff (p : Period) {a b : DateTime} (ha : a.Valid) (hb : b.Valid) (fa : a.floor p = a) (fb : b.floor p = b) :
    a.lt b = true ↔ periodOrd p a < periodOrd p b := by
  obtain ⟨-, a2, a3, -⟩ := floor_facts p ha
  obtain ⟨-, b2, b3, -⟩ := floor_facts p hb
  rw [fa] at a2 a3
  rw [fb] at b2 b3
  rw [lt_iff ha hb, a2, b2, a3, b3]
  constructor
  · rintro (h | h)
    · by_contra hge
      have := periodStart_le (p := p) (not_lt.1 hge)
      omega
    · omega
  · intro h; exact .inl (periodStart_mono p h)

variable {α : Type} [Field α]

theorem periodVals_ok {data : List α} {times : List DateTime} (hl : data.length = times.length) (a b : DateTime) :
    periodVals data times a b = .ok ((whereIdx times fun t => a.lt t && t.lt b).map fun j => data.getD j 0) := by
  unfold periodVals
  apply mapM_ok_of
  intro j hj
  obtain ⟨x, hx, -⟩ := whereIdx_mem.1 hj
  have : j < data.length := by have := (List.getElem?_eq_some_iff.1 hx).1; omega
  simp [pyGet, List.getD, List.getElem?_eq_getElem this]

theorem periodLoop_ok (p : Period) {data : List α} {times : List DateTime} (hl : data.length = times.length) {last : DateTime} (hv : last.Valid) (hf : last.floor p = last) :
    ∀ (d fuel : Nat) (cur : DateTime) (acc : List (Option α × DateTime)), cur.Valid → cur.floor p = cur → periodOrd p cur + d = periodOrd p last + 1 → d < fuel →
    periodLoop p data times last fuel cur acc = .ok (some (acc ++ (List.range d).map fun i =>
      (pyAverage ((whereIdx times fun t => (laterPeriod p cur i).lt t && t.lt ((laterPeriod p cur i).next p)).map fun j => data.getD j 0), laterPeriod p cur i))) := by
  intro d
  induction d with
  | zero =>
    intro fuel cur acc h1 h2 h3 h4
    obtain ⟨fuel, rfl⟩ : ∃ k, fuel = k + 1 := ⟨fuel - 1, by omega⟩
    simp only [periodLoop]
    rw [if_pos ((start_lt_iff p hv h1 hf h2).2 (by omega))]
    simp
  | succ d ih =>
    intro fuel cur acc h1 h2 h3 h4
    obtain ⟨fuel, rfl⟩ : ∃ k, fuel = k + 1 := ⟨fuel - 1, by omega⟩
    obtain ⟨n1, n2, n3⟩ := next_facts p h1 h2
    simp only [periodLoop]
    rw [if_neg (by rw [start_lt_iff p hv h1 hf h2]; omega), periodVals_ok hl]
    simp only [bind, Except.bind]
    rw [ih fuel _ _ n1 n2 (by omega) (by omega), List.append_assoc, List.range_succ_eq_map, List.map_cons, List.map_map]
    rfl

theorem times_bounds {times : List DateTime} (hne : times ≠ []) (hv : ∀ t ∈ times, t.Valid) :
    ∃ lo hi, timesMin times = .ok lo ∧ timesMax times = .ok hi ∧ lo ∈ times ∧ hi ∈ times ∧ ∀ t ∈ times, hourOrd lo ≤ hourOrd t ∧ hourOrd t ≤ hourOrd hi := by
  obtain ⟨a, l, rfl⟩ : ∃ a t, times = a :: t := by cases times with
    | nil => exact absurd rfl hne
    | cons a t => exact ⟨a, t, rfl⟩
  have hmin : ∀ (l : List DateTime) (a : DateTime), a.Valid → (∀ t ∈ l, t.Valid) →
      (l.foldl (fun a b => if b.lt a then b else a) a) ∈ a :: l ∧ ∀ t ∈ a :: l, hourOrd (l.foldl (fun a b => if b.lt a then b else a) a) ≤ hourOrd t := by
    intro l
    induction l with
    | nil => intro a _ _; simp
    | cons b l ih =>
      intro a ha hl
      have hb := hl b (by simp)
      simp only [List.foldl_cons]
      have hc : ∃ c, c = (if b.lt a then b else a) ∧ c.Valid ∧ (c = a ∨ c = b) ∧ hourOrd c ≤ hourOrd a ∧ hourOrd c ≤ hourOrd b := by
        have := lt_iff hb ha
        split
        · rename_i h
          have := this.1 h
          exact ⟨b, rfl, hb, .inr rfl, by omega, by omega⟩
        · rename_i h
          refine ⟨a, rfl, ha, .inl rfl, le_rfl, ?_⟩
          by_contra hcon
          exact h (this.2 (.inl (by omega)))
      obtain ⟨c, c1, c2, c3, c4, c5⟩ := hc
      rw [← c1]
      obtain ⟨i1, i2⟩ := ih c c2 (fun t ht => hl t (by simp [ht]))
      have hcc := i2 c (by simp)
      constructor
      · rcases List.mem_cons.1 i1 with h | h
        · rw [h]; rcases c3 with rfl | rfl <;> simp
        · exact List.mem_cons_of_mem _ (List.mem_cons_of_mem _ h)
      · intro t ht
        rcases List.mem_cons.1 ht with rfl | ht
        · omega
        · rcases List.mem_cons.1 ht with rfl | ht
          · omega
          · exact i2 t (by simp [ht])
  have hmax : ∀ (l : List DateTime) (a : DateTime), a.Valid → (∀ t ∈ l, t.Valid) →
      (l.foldl (fun a b => if a.lt b then b else a) a) ∈ a :: l ∧ ∀ t ∈ a :: l, hourOrd t ≤ hourOrd (l.foldl (fun a b => if a.lt b then b else a) a) := by
    intro l
    induction l with
    | nil => intro a _ _; simp
    | cons b l ih =>
      intro a ha hl
      have hb := hl b (by simp)
      simp only [List.foldl_cons]
      have hc : ∃ c, c = (if a.lt b then b else a) ∧ c.Valid ∧ (c = a ∨ c = b) ∧ hourOrd a ≤ hourOrd c ∧ hourOrd b ≤ hourOrd c := by
        have := lt_iff ha hb
        split
        · rename_i h
          have := this.1 h
          exact ⟨b, rfl, hb, .inr rfl, by omega, by omega⟩
        · rename_i h
          refine ⟨a, rfl, ha, .inl rfl, le_rfl, ?_⟩
          by_contra hcon
          exact h (this.2 (.inl (by omega)))
      obtain ⟨c, c1, c2, c3, c4, c5⟩ := hc
      rw [← c1]
      obtain ⟨i1, i2⟩ := ih c c2 (fun t ht => hl t (by simp [ht]))
      have hcc := i2 c (by simp)
      constructor
      · rcases List.mem_cons.1 i1 with h | h
        · rw [h]; rcases c3 with rfl | rfl <;> simp
        · exact List.mem_cons_of_mem _ (List.mem_cons_of_mem _ h)
      · intro t ht
        rcases List.mem_cons.1 ht with rfl | ht
        · omega
        · rcases List.mem_cons.1 ht with rfl | ht
          · omega
          · exact i2 t (by simp [ht])
  obtain ⟨a1, a2⟩ := hmin l a (hv a (by simp)) (fun t ht => hv t (by simp [ht]))
  obtain ⟨b1, b2⟩ := hmax l a (hv a (by simp)) (fun t ht => hv t (by simp [ht]))
  exact ⟨_, _, rfl, rfl, a1, b1, fun t ht => ⟨a2 t ht, b2 t ht⟩⟩

theorem ord_mono (p : Period) {a b : DateTime} (ha : a.Valid) (hb : b.Valid) (h : hourOrd a ≤ hourOrd b) : periodOrd p a ≤ periodOrd p b := by
  by_contra hcon
  have := periodStart_le (p := p) (show periodOrd p b + 1 ≤ periodOrd p a by omega)
  have := period_bounds p ha
  have := period_bounds p hb
  omega

/-- **C51 (part).** The loop over the periods ends; the periods are all different and include that of every datum; the average of a period is that of the data
in the period except those exactly at its beginning. So every datum that is not at the beginning of a period contributes to the average of exactly that period.
Missing from C51: data at the beginning of a period. -/
theorem C51_periods_partial (p : Period) {data : List α} {times : List DateTime} (hne : times ≠ []) (hv : ∀ t ∈ times, t.Valid) (hl : data.length = times.length) :
    ∃ out N, (∀ fuel, N ≤ fuel → timeAverage p data times fuel = .ok (some out)) ∧ (out.map (·.2)).Nodup ∧
      (∀ t ∈ times, t.floor p ∈ out.map (·.2)) ∧
      ∀ avg s, (avg, s) ∈ out → ∃ js : List Nat, js.Nodup ∧ (∀ j, j ∈ js ↔ ∃ t, times[j]? = some t ∧ t.floor p = s ∧ t ≠ s) ∧
        avg = pyAverage (js.map fun j => data.getD j 0) := by
  obtain ⟨lo, hi, h1, h2, h3, h4, h5⟩ := times_bounds hne hv
  have vlo := hv lo h3
  have vhi := hv hi h4
  obtain ⟨l1, -, -, l4, l5⟩ := floor_facts p vlo
  obtain ⟨u1, -, -, u4, u5⟩ := floor_facts p vhi
  have hle : periodOrd p lo ≤ periodOrd p hi := ord_mono p vlo vhi (h5 lo h3).2
  obtain ⟨d, hd⟩ : ∃ d, d = periodOrd p hi + 1 - periodOrd p lo := ⟨_, rfl⟩
  have hrun : ∀ fuel, d + 1 ≤ fuel → timeAverage p data times fuel = _ := fun fuel hfuel =>
    bind_ok.2 ⟨_, h1, bind_ok.2 ⟨_, h2, periodLoop_ok p hl u1 u5 d fuel (lo.floor p) [] l1 l5 (by rw [l4, u4]; omega) (by omega)⟩⟩
  refine ⟨_, d + 1, hrun, ?_, ?_, ?_⟩
  · simp only [List.nil_append, List.map_map]
    refine List.Nodup.map_on ?_ List.nodup_range
    intro i _ j _ hij
    simp only [Function.comp_def] at hij
    have hi' := (laterPeriod_facts p i l1 l5).2.2
    have hj' := (laterPeriod_facts p j l1 l5).2.2
    rw [hij] at hi'
    omega
  · intro t ht
    have vt := hv t ht
    obtain ⟨t1, -, -, t4, t5⟩ := floor_facts p vt
    have q1 := ord_mono p vlo vt (h5 t ht).1
    have q2 := ord_mono p vt vhi (h5 t ht).2
    obtain ⟨k1, k2, k3⟩ := laterPeriod_facts p (periodOrd p t - periodOrd p lo) l1 l5
    simp only [List.nil_append, List.map_map, List.mem_map, List.mem_range, Function.comp_def]
    exact ⟨periodOrd p t - periodOrd p lo, by omega, start_unique p k1 t1 k2 t5 (by rw [k3, l4, t4]; omega)⟩
  · intro avg s hs
    simp only [List.nil_append, List.mem_map, List.mem_range, Prod.mk.injEq] at hs
    obtain ⟨i, -, rfl, rfl⟩ := hs
    obtain ⟨k1, k2, -⟩ := laterPeriod_facts p i l1 l5
    refine ⟨_, whereIdx_nodup _ _, ?_, rfl⟩
    intro j
    rw [whereIdx_mem]
    constructor
    · rintro ⟨t, ht, hin⟩; exact ⟨t, ht, (inside_iff p k1 k2 (hv t (List.mem_of_getElem? ht))).1 hin⟩
    · rintro ⟨t, ht, hin⟩; exact ⟨t, ht, (inside_iff p k1 k2 (hv t (List.mem_of_getElem? ht))).2 hin⟩

/-- **C51 is false of the code.** A datum exactly at the beginning of a period (midnight on the first of the month) is in no average: the result does not depend on it. -/
theorem C51_boundary_lost (p : Period) {data data' : List α} {times : List DateTime} (hne : times ≠ []) (hv : ∀ t ∈ times, t.Valid) (hl : data.length = times.length)
    (hl' : data'.length = times.length) (hsame : ∀ (j : Nat) (t : DateTime), times[j]? = some t → t.floor p ≠ t → data[j]? = data'[j]?) :
    ∃ out N, ∀ fuel, N ≤ fuel → timeAverage p data times fuel = .ok (some out) ∧ timeAverage p data' times fuel = .ok (some out) := by
  obtain ⟨lo, hi, h1, h2, h3, h4, h5⟩ := times_bounds hne hv
  have vlo := hv lo h3
  have vhi := hv hi h4
  obtain ⟨l1, -, -, l4, l5⟩ := floor_facts p vlo
  obtain ⟨u1, -, -, u4, u5⟩ := floor_facts p vhi
  have hle : periodOrd p lo ≤ periodOrd p hi := ord_mono p vlo vhi (h5 lo h3).2
  obtain ⟨d, hd⟩ : ∃ d, d = periodOrd p hi + 1 - periodOrd p lo := ⟨_, rfl⟩
  have hrun : ∀ (data : List α), data.length = times.length → ∀ fuel, d + 1 ≤ fuel → timeAverage p data times fuel = _ := fun data hl fuel hfuel =>
    bind_ok.2 ⟨_, h1, bind_ok.2 ⟨_, h2, periodLoop_ok p hl u1 u5 d fuel (lo.floor p) [] l1 l5 (by rw [l4, u4]; omega) (by omega)⟩⟩
  refine ⟨_, d + 1, fun fuel hfuel => ⟨hrun data hl fuel hfuel, ?_⟩⟩
  rw [hrun data' hl' fuel hfuel]
  congr 3
  apply List.map_congr_left
  intro i _
  obtain ⟨k1, k2, -⟩ := laterPeriod_facts p i l1 l5
  congr 2
  apply List.map_congr_left
  intro j hj
  obtain ⟨t, ht, hin⟩ := whereIdx_mem.1 hj
  obtain ⟨e1, e2⟩ := (inside_iff p k1 k2 (hv t (List.mem_of_getElem? ht))).1 hin
  simp only [List.getD]
  rw [hsame j t ht (by rw [e1]; exact fun h => e2 h.symm)]

/-- A concrete case (monthly averages): a datum at 0:00 on 1 March is lost; a month without data is `nan`. -/
theorem C51_case : timeAverage .month ([1, 3, 100, 5] : List ℚ) [⟨2000, 12, 3, 0, 0⟩, ⟨2000, 12, 10, 5, 1⟩, ⟨2001, 3, 1, 0, 0⟩, ⟨2001, 3, 1, 0, 1⟩] 9 =
    .ok (some [(some 2, ⟨2000, 12, 1, 0, 0⟩), (none, ⟨2001, 1, 1, 0, 0⟩), (none, ⟨2001, 2, 1, 0, 0⟩), (some 5, ⟨2001, 3, 1, 0, 0⟩)]) ∧
    ∀ t ∈ [(⟨2000, 12, 3, 0, 0⟩ : DateTime), ⟨2000, 12, 10, 5, 1⟩, ⟨2001, 3, 1, 0, 0⟩, ⟨2001, 3, 1, 0, 1⟩], t.Valid := by
  refine ⟨by decide +kernel, ?_⟩
  intro t ht
  simp only [List.mem_cons, List.not_mem_nil, or_false] at ht
  rcases ht with rfl | rfl | rfl | rfl <;> exact ⟨by decide, by decide, by decide, by decide, by decide⟩

end Verif
