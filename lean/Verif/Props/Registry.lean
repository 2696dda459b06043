import Verif.Model.Registry
import Verif.Props.SensorModelsT
import Verif.Props.SensorModelsMW
import Verif.Props.SensorData
import Verif.Lemmas.KernelRfl
import Mathlib.Data.Nat.Digits.Defs
/-
Property C78: the sensor data shipped with the package.
-/
set_option autoImplicit false
namespace Verif
variable {δ : Type}

/-! ### Specification -/

/-- The names a user can choose from. -/
def shippedNames : List String :=
  ["AVHRR_11um_3_rescaled", "AVHRR_12um_3_rescaled", "AVHRR_37um_2_rescaled", "AVHRR_11um_3", "AVHRR_12um_3", "AVHRR_37um_2", "AVHRR_11um_4_rescaled",
   "AVHRR_12um_4_rescaled", "AVHRR_37um_3_rescaled", "AVHRR_11um_4", "AVHRR_12um_4", "AVHRR_37um_3", "AVHRR_sim_3", "AVHRR_sim_4", "HIRS__Ch01_3", "HIRS__Ch02_3",
   "HIRS__Ch03_3", "HIRS__Ch04_3", "HIRS__Ch05_3", "HIRS__Ch06_3", "HIRS__Ch07_3", "HIRS__Ch08_3", "HIRS__Ch09_3", "HIRS__Ch10_3", "HIRS__Ch11_3", "HIRS__Ch12_3",
   "HIRS__Ch13_3", "HIRS__Ch14_3", "HIRS__Ch15_3", "HIRS__Ch16_3", "HIRS__Ch17_3", "HIRS__Ch18_3", "HIRS__Ch19_3", "MW____Ch03_3", "test_sim"]

/-- The sensor can be used with its own data: called with the declared number of variables for `n` match-ups, the declared parameters and constants, its model returns one measurand
per match-up and, unless it is a reference without parameters, one derivative for each variable and parameter. (The microwave model needs the across-track positions.) -/
def SensorDict.Usable (e : SensorDict) : Prop :=
  ∀ {δ : Type} (X : List (List ℝ)) (n : Nat) (xt al : Option (List ℝ)) (t : Option (List δ)), X.length = e.variablesNum → (∀ col ∈ X, col.length = n) →
    (e.model = .mw3 → ∃ idx, xt = some idx ∧ idx.length = n ∧ ∀ i ∈ idx, 0 ≤ i ∧ i ≤ 90) →
    ∃ R J, e.model.run X (e.parameter.map (fun q : ℚ => (q : ℝ))) (e.constant.map (fun q : ℚ => (q : ℝ))) xt al t = .ok (R, J) ∧ R.length = n ∧
      ((e.parameter = [] ∧ J = none) ∨ ∃ D, J = some D ∧ D.length = e.variablesNum + e.parameter.length ∧ ∀ col ∈ D, col.length = n)

/-! ### Dictionaries -/

theorem odGet_ok {β : Type} {d : List (String × β)} {k : String} {x : β} (h : odGet d k = .ok x) : (k, x) ∈ d := by
  unfold odGet at h
  split at h
  · rename_i e he
    have h1 := List.find?_some he
    have h2 := List.mem_of_find?_eq_some he
    simp only [beq_iff_eq] at h1
    cases h
    subst h1
    exact h2
  · cases h

theorem odGet_missing {β : Type} {d : List (String × β)} {k : String} (h : k ∉ d.map (·.1)) : odGet d k = .error .keyError := by
  unfold odGet
  rw [List.find?_eq_none.2]
  intro e he
  simp only [beq_iff_eq]
  rintro rfl
  exact h (List.mem_map.2 ⟨e, he, rfl⟩)

theorem odGet_mem {β : Type} : ∀ {d : List (String × β)} {k : String} {x : β}, (d.map (·.1)).Nodup → (k, x) ∈ d → odGet d k = .ok x
  | [], _, _, _, h => by simp at h
  | e :: d, k, x, hn, h => by
    rw [List.map_cons, List.nodup_cons] at hn
    unfold odGet
    by_cases he : e.1 = k
    · rw [List.find?_cons_of_pos (by simpa using he)]
      rcases List.mem_cons.1 h with rfl | h
      · rfl
      · exact absurd (List.mem_map.2 ⟨_, h, rfl⟩) (he ▸ hn.1)
    · rw [List.find?_cons_of_neg (by simpa using he)]
      rcases List.mem_cons.1 h with rfl | h
      · exact absurd rfl he
      · have := odGet_mem hn.2 h
        unfold odGet at this
        exact this

theorem odGet_odSet {β : Type} (d : List (String × β)) (k : String) (x : β) (k' : String) : odGet (odSet d k x) k' = if k' = k then .ok x else odGet d k' := by
  unfold odSet
  by_cases h : (d.any fun e => e.1 == k) = true
  · rw [if_pos h]
    unfold odGet
    rw [List.find?_map]
    induction d with
    | nil => simp at h
    | cons e d ih =>
      by_cases he : e.1 = k
      · by_cases hk : k' = k
        · subst hk
          rw [List.find?_cons_of_pos (by simp [he])]
          simp [he]
        · rw [List.find?_cons_of_neg (by simp [he]; exact fun h => hk h.symm)]
          rw [List.find?_cons_of_neg (a := e) (l := d) (by simp [he]; exact fun h => hk h.symm), if_neg hk]
          by_cases ha : d.any (fun e => e.1 == k) = true
          · have := ih ha
            rw [if_neg hk] at this
            exact this
          · have hcong : List.find? ((fun e : String × β => e.1 == k') ∘ fun e => if (e.1 == k) = true then (k, x) else e) d = List.find? (fun e => e.1 == k') d := by
              apply List.find?_congr
              intro y hy
              have : ¬ (y.1 == k) = true := fun hc => ha (List.any_eq_true.2 ⟨y, hy, hc⟩)
              simp only [Function.comp, if_neg this]
            rw [hcong]
            cases hf : List.find? (fun e => e.1 == k') d with
            | none => rfl
            | some y =>
              have hy := List.mem_of_find?_eq_some hf
              have : ¬ (y.1 == k) = true := fun hc => ha (List.any_eq_true.2 ⟨y, hy, hc⟩)
              simp only [Option.map_some, if_neg this]
      · have ha : d.any (fun e => e.1 == k) = true := by
          simpa [he] using h
        by_cases hek : e.1 = k'
        · rw [List.find?_cons_of_pos (by simp only [Function.comp, beq_iff_eq, if_neg he]; exact hek)]
          rw [List.find?_cons_of_pos (a := e) (l := d) (by simp [hek])]
          have : ¬ k' = k := by rw [← hek]; exact he
          simp [he, this]
        · rw [List.find?_cons_of_neg (by simp [he, hek])]
          rw [List.find?_cons_of_neg (a := e) (l := d) (by simp [hek])]
          exact ih ha
  · rw [if_neg h]
    unfold odGet
    rw [List.find?_append]
    by_cases hk : k' = k
    · subst hk
      rw [List.find?_eq_none.2 (by
        intro e he hc
        exact h (List.any_eq_true.2 ⟨e, he, hc⟩))]
      simp
    · rw [if_neg hk]
      have : List.find? (fun e : String × β => e.1 == k') [(k, x)] = none := by
        rw [List.find?_cons_of_neg (by simp; exact fun h => hk h.symm)]
        rfl
      rw [this]
      simp

theorem odSet_keys {β : Type} (d : List (String × β)) (k : String) (x : β) (k' : String) : k' ∈ (odSet d k x).map (·.1) ↔ k' = k ∨ k' ∈ d.map (·.1) := by
  unfold odSet
  split
  · rename_i h
    obtain ⟨e, he, hk⟩ := List.any_eq_true.1 h
    have hm : (d.map fun e => if (e.1 == k) = true then (k, x) else e).map (·.1) = d.map (·.1) := by
      rw [List.map_map]
      apply List.map_congr_left
      intro y _
      by_cases hy : y.1 = k <;> simp [hy]
    rw [hm]
    constructor
    · exact .inr
    · rintro (rfl | h)
      · exact List.mem_map.2 ⟨e, he, by simpa using hk⟩
      · exact h
  · simp only [List.map_append, List.map_cons, List.map_nil, List.mem_append, List.mem_singleton]
    tauto

/-! ### HIRS constants -/

/-- The constants a coefficient file gives for a sensor: the numbers in the second to fourth word of the last line, after the heading, that begins with its name. -/
def CoefficientsOf (file : List (List String)) (s : String) (c : List ℚ) : Prop :=
  ∃ (before after : List (List String)) (rest : List String), file.drop 1 = before ++ (s :: rest) :: after ∧ (∀ l ∈ after, l.head? ≠ some s) ∧ (rest.take 3).mapM pyFloat = .ok c

theorem readCoeff_fold {s : String} : ∀ {lines : List (List String)} {d r : List (String × List ℚ)},
    lines.foldlM (fun (d : List (String × List ℚ)) (line : List String) =>
      match line with
      | [] => (.error .indexError : Py (List (String × List ℚ)))
      | name :: rest => do
        let c ← (rest.take 3).mapM pyFloat
        pure (odSet d name c)) d = .ok r →
    (odGet r s = odGet d s ∧ ∀ l ∈ lines, l.head? ≠ some s) ∨
      ∃ before after rest c, lines = before ++ (s :: rest) :: after ∧ (∀ l ∈ after, l.head? ≠ some s) ∧ (rest.take 3).mapM pyFloat = .ok c ∧ odGet r s = .ok c
  | [], d, r, h => by
    cases h
    exact .inl ⟨rfl, by simp⟩
  | [] :: lines, d, r, h => by
    rw [List.foldlM_cons] at h
    cases h
  | (name :: rest) :: lines, d, r, h => by
    rw [List.foldlM_cons] at h
    obtain ⟨d', hd, h⟩ := bind_ok.1 h
    obtain ⟨c, hc, hd⟩ := bind_ok.1 hd
    cases hd
    rcases readCoeff_fold (s := s) h with ⟨h1, h2⟩ | ⟨b, a, rs, c', e1, e2, e3, e4⟩
    · rw [odGet_odSet] at h1
      by_cases hs : s = name
      · subst hs
        rw [if_pos rfl] at h1
        exact .inr ⟨[], lines, rest, c, rfl, h2, hc, h1⟩
      · rw [if_neg hs] at h1
        refine .inl ⟨h1, ?_⟩
        intro l hl
        rcases List.mem_cons.1 hl with rfl | hl
        · simpa using fun h => hs h.symm
        · exact h2 l hl
    · exact .inr ⟨(name :: rest) :: b, a, rs, c', by rw [e1]; rfl, e2, e3, e4⟩

theorem hirs_fold {coeffs : List (String × List ℚ)} : ∀ {sensors : List String} {d r : Shipped},
    sensors.foldlM (fun (d : Shipped) (s : String) => do
      let c ← odGet coeffs s
      (pure (odSet d s ⟨.hirs3, 5, [0, 0, 0], c⟩) : Py Shipped)) d = .ok r →
    (∀ s ∈ sensors, ∃ c, odGet coeffs s = .ok c ∧ odGet r s = .ok ⟨.hirs3, 5, [0, 0, 0], c⟩) ∧ ∀ s, s ∉ sensors → odGet r s = odGet d s
  | [], d, r, h => by
    cases h
    exact ⟨by simp, fun _ _ => rfl⟩
  | s :: sensors, d, r, h => by
    rw [List.foldlM_cons] at h
    obtain ⟨d', hd, h⟩ := bind_ok.1 h
    obtain ⟨c, hc, hd⟩ := bind_ok.1 hd
    cases hd
    obtain ⟨h1, h2⟩ := hirs_fold h
    refine ⟨?_, ?_⟩
    · intro s' hs'
      by_cases hm : s' ∈ sensors
      · exact h1 s' hm
      · rcases List.mem_cons.1 hs' with rfl | hs'
        · refine ⟨c, hc, ?_⟩
          rw [h2 _ hm, odGet_odSet, if_pos rfl]
        · exact absurd hs' hm
    · intro s' hs'
      rw [List.mem_cons, not_or] at hs'
      rw [h2 s' hs'.2, odGet_odSet, if_neg hs'.1]

/-- **C78, HIRS.** For every coefficient file that can be read: each of the sixteen sensors has the three-parameter model with five variables, and the constants on its own line of the file. -/
theorem C78_hirs_constants (file : List (List String)) (d : Shipped) (h : returnSensorData file = .ok d) :
    ∀ s ∈ hirsSensors, ∃ c, CoefficientsOf file s c ∧ odGet d s = .ok ⟨.hirs3, 5, [0, 0, 0], c⟩ := by
  obtain ⟨coeffs, hc, h⟩ := bind_ok.1 h
  intro s hs
  obtain ⟨c, h1, h2⟩ := (hirs_fold h).1 s hs
  refine ⟨c, ?_, h2⟩
  rcases readCoeff_fold (s := s) hc with ⟨h3, _⟩ | ⟨b, a, rest, c', e1, e2, e3, e4⟩
  · rw [h3] at h1
    exact absurd h1 (by simp [odGet])
  · rw [h1] at e4
    cases e4
    exact ⟨b, a, rest, e1, e2, e3⟩

theorem hirs_fold_keys {coeffs : List (String × List ℚ)} : ∀ {sensors : List String} {d r : Shipped}, (d.map (·.1) ++ sensors).Nodup →
    sensors.foldlM (fun (d : Shipped) (s : String) => do
      let c ← odGet coeffs s
      (pure (odSet d s ⟨.hirs3, 5, [0, 0, 0], c⟩) : Py Shipped)) d = .ok r → r.map (·.1) = d.map (·.1) ++ sensors
  | [], d, r, _, h => by
    cases h
    simp
  | s :: sensors, d, r, hn, h => by
    rw [List.foldlM_cons] at h
    obtain ⟨d', hd, h⟩ := bind_ok.1 h
    obtain ⟨c, hc, hd⟩ := bind_ok.1 hd
    cases hd
    have hs : ∀ e ∈ d, ¬ (e.1 == s) = true := by
      intro e he hes
      have h1 := (List.nodup_append.1 hn).2.2 e.1 (List.mem_map.2 ⟨e, he, rfl⟩) s (by simp)
      exact h1 (by simpa using hes)
    have hset : odSet d s (⟨.hirs3, 5, [0, 0, 0], c⟩ : SensorDict) = d ++ [(s, ⟨.hirs3, 5, [0, 0, 0], c⟩)] := by
      unfold odSet
      rw [if_neg]
      simp only [List.any_eq_true, not_exists, not_and]
      exact hs
    rw [hset] at h
    have := hirs_fold_keys (d := d ++ [(s, ⟨.hirs3, 5, [0, 0, 0], c⟩)]) (by simpa using hn) h
    simpa using this

/-- **C78, HIRS.** Whatever the coefficient file, the sensors of a channel are the reference IASI and the sixteen instruments, in this order. -/
theorem C78_hirs_sensors (file : List (List String)) (d : Shipped) (h : returnSensorData file = .ok d) :
    d.map (·.1) = ["iasi", "ma", "mb", "n19", "n18", "n17", "n16", "n15", "n14", "n12", "n11", "n10", "n09", "n08", "n07", "n06", "tn"] := by
  obtain ⟨coeffs, hc, h⟩ := bind_ok.1 h
  exact hirs_fold_keys (by decide +kernel) h

/-! #### Decimal numbers -/

/-- The character of a decimal digit. -/
def digitChar (d : Fin 10) : Char := Char.ofNat (48 + d.val)

/-- The number written by decimal digits, the first one being the most significant. -/
def digitsValue (l : List (Fin 10)) : Nat := Nat.ofDigits 10 (l.reverse.map (·.val))

/-- How a sign may be written: nothing, or one character. -/
def signChars : Option Bool → List Char
  | none => []
  | some true => ['-']
  | some false => ['+']

/-- The factor it stands for. -/
def signValue : Option Bool → ℤ
  | some true => -1
  | _ => 1

theorem digitChar_facts : ∀ d : Fin 10, (digitChar d).isDigit = true ∧ (digitChar d).toNat - 48 = d.val ∧ digitChar d ≠ '.' ∧ digitChar d ≠ 'e' ∧ digitChar d ≠ 'E' ∧
    digitChar d ≠ '-' ∧ digitChar d ≠ '+' := by decide +kernel

theorem digitsValue_snoc (l : List (Fin 10)) (d : Fin 10) : digitsValue (l ++ [d]) = 10 * digitsValue l + d.val := by
  unfold digitsValue
  rw [List.reverse_append]
  simp [Nat.ofDigits_cons]
  omega

theorem digits?_ok (l : List (Fin 10)) : digits? (l.map digitChar) = some (digitsValue l) := by
  induction l using List.reverseRecOn with
  | nil => rfl
  | append_singleton l d ih =>
    unfold digits? at ih ⊢
    rw [List.map_append, List.foldl_append, ih, digitsValue_snoc]
    obtain ⟨h1, h2, _⟩ := digitChar_facts d
    simp [h1, h2]

theorem splitAt?_none {p : Char → Bool} {l : List Char} (h : ∀ c ∈ l, p c = false) : splitAt? p l = (l, none) := by
  unfold splitAt?
  have hd : l.dropWhile (fun c => !p c) = [] := by
    induction l with
    | nil => rfl
    | cons c l ih =>
      rw [List.dropWhile_cons, if_pos (by simp [h c (by simp)])]
      exact ih fun c hc => h c (by simp [hc])
  rw [hd]

theorem splitAt?_some {p : Char → Bool} {l r : List Char} {c : Char} (h : ∀ c ∈ l, p c = false) (hc : p c = true) : splitAt? p (l ++ c :: r) = (l, some r) := by
  unfold splitAt?
  rw [List.dropWhile_append_of_pos (by intro c hc; simp [h c hc]), List.takeWhile_append_of_pos (by intro c hc; simp [h c hc])]
  simp [hc]

theorem sign?_ok (s : Option Bool) (l : List Char) (h : ∀ c, l.head? = some c → c ≠ '-' ∧ c ≠ '+') : sign? (signChars s ++ l) = (decide (s = some true), l) := by
  match s with
  | some true => rfl
  | some false => rfl
  | none =>
    match l with
    | [] => rfl
    | c :: l =>
      obtain ⟨h1, h2⟩ := h c rfl
      show sign? (c :: l) = _
      unfold sign?
      split <;> simp_all

theorem plain?_point (i f : List (Fin 10)) (h : i ≠ [] ∨ f ≠ []) :
    plain? (i.map digitChar ++ '.' :: f.map digitChar) = some ((digitsValue i : ℚ) + digitsValue f / 10 ^ f.length) := by
  unfold plain?
  rw [splitAt?_some (by intro c hc; obtain ⟨d, _, rfl⟩ := List.mem_map.1 hc; simpa using (digitChar_facts d).2.2.1) (by decide)]
  simp only
  rw [if_neg (by simp; tauto), digits?_ok, digits?_ok]
  simp [bind, pure]

theorem plain?_int (i : List (Fin 10)) (h : i ≠ []) : plain? (i.map digitChar) = some (digitsValue i : ℚ) := by
  unfold plain?
  rw [splitAt?_none (by intro c hc; obtain ⟨d, _, rfl⟩ := List.mem_map.1 hc; simpa using (digitChar_facts d).2.2.1)]
  simp only
  rw [if_neg (by simpa using h), digits?_ok]
  rfl

/-- **C78, numbers.** A word made of a sign, digits, a point, digits, the letter `e` (or `E`), a sign and digits is read as the decimal number it denotes; so are the shorter forms without the
exponent, and without the point. -/
theorem C78_decimal (s es : Option Bool) (i f k : List (Fin 10)) (up : Bool) (hm : i ≠ [] ∨ f ≠ []) (hk : k ≠ []) :
    pyFloat (String.ofList (signChars s ++ (i.map digitChar ++ '.' :: f.map digitChar) ++ (if up then 'E' else 'e') :: (signChars es ++ k.map digitChar))) =
      .ok (signValue s * ((digitsValue i : ℚ) + digitsValue f / 10 ^ f.length) * (10 : ℚ) ^ (signValue es * digitsValue k : ℤ)) ∧
    pyFloat (String.ofList (signChars s ++ (i.map digitChar ++ '.' :: f.map digitChar))) = .ok (signValue s * ((digitsValue i : ℚ) + digitsValue f / 10 ^ f.length)) ∧
    (i ≠ [] → pyFloat (String.ofList (signChars s ++ i.map digitChar)) = .ok (signValue s * (digitsValue i : ℚ))) := by
  have hd : ∀ l : List (Fin 10), ∀ c ∈ l.map digitChar, (c == 'e' || c == 'E') = false ∧ c ≠ '-' ∧ c ≠ '+' := by
    intro l c hc
    obtain ⟨d, _, rfl⟩ := List.mem_map.1 hc
    obtain ⟨_, _, _, h1, h2, h3, h4⟩ := digitChar_facts d
    exact ⟨by simp [h1, h2], h3, h4⟩
  have hd' : ∀ c ∈ i.map digitChar ++ '.' :: f.map digitChar, (c == 'e' || c == 'E') = false ∧ c ≠ '-' ∧ c ≠ '+' := by
    intro c hc
    rcases List.mem_append.1 hc with hc | hc
    · exact hd i c hc
    · rcases List.mem_cons.1 hc with rfl | hc
      · exact ⟨by decide, by decide, by decide⟩
      · exact hd f c hc
  have hsgn : ∀ (s : Option Bool) (x : ℚ), (if decide (s = some true) = true then -x else x) = signValue s * x := by
    intro s x
    match s with
    | none => simp [signValue]
    | some true => simp [signValue]
    | some false => simp [signValue]
  have hexp : ∀ (e : Option Bool) (n : Nat) (y : ℚ), (if decide (e = some true) = true then y / 10 ^ n else y * 10 ^ n) = y * (10 : ℚ) ^ (signValue e * n : ℤ) := by
    intro e n y
    match e with
    | none => simp [signValue]
    | some true => simp [signValue, div_eq_mul_inv]
    | some false => simp [signValue]
  refine ⟨?_, ?_, ?_⟩
  · unfold pyFloat
    rw [String.toList_ofList, List.append_assoc, sign?_ok]
    · simp only
      rw [splitAt?_some (fun c hc => (hd' c hc).1) (by cases up <;> decide)]
      simp only
      rw [plain?_point i f hm, sign?_ok _ _ (fun c hc => (hd k c (List.mem_of_mem_head? hc)).2)]
      simp only [bind, Option.bind, pure, List.map_eq_nil_iff, hk, if_false, digits?_ok, hsgn, hexp]
    · intro c hc
      have : (i.map digitChar ++ '.' :: f.map digitChar ++ (if up then 'E' else 'e') :: (signChars es ++ k.map digitChar)).head? =
          (i.map digitChar ++ '.' :: f.map digitChar).head? := by
        cases i <;> rfl
      rw [this] at hc
      exact (hd' c (List.mem_of_mem_head? hc)).2
  · unfold pyFloat
    rw [String.toList_ofList, sign?_ok _ _ (fun c hc => (hd' c (List.mem_of_mem_head? hc)).2)]
    simp only
    rw [splitAt?_none (fun c hc => (hd' c hc).1)]
    simp only
    rw [plain?_point i f hm]
    simp only [bind, Option.bind, pure, hsgn]
  · intro hi
    unfold pyFloat
    rw [String.toList_ofList, sign?_ok _ _ (fun c hc => (hd i c (List.mem_of_mem_head? hc)).2)]
    simp only
    rw [splitAt?_none (fun c hc => (hd i c hc).1)]
    simp only
    rw [plain?_int i hi]
    simp only [bind, Option.bind, pure, hsgn]

/-- A word of a coefficient file. -/
theorem C78_decimal_case : pyFloat "-1.25e-3" = .ok (-1 / 800) ∧ String.ofList (signChars (some true) ++ ([1].map digitChar ++ '.' :: [2, 5].map digitChar) ++
    (if false then 'E' else 'e') :: (signChars (some true) ++ [3].map digitChar)) = "-1.25e-3" := by decide +kernel

/-- **C78, HIRS.** A file without a line for one of the sixteen sensors is refused (`KeyError`), so the package cannot be imported with it. -/
theorem C78_hirs_missing (file : List (List String)) (coeffs : List (String × List ℚ)) (hr : readCoeffData file = .ok coeffs) (s : String) (hs : s ∈ hirsSensors)
    (hm : ∀ l ∈ file.drop 1, l.head? ≠ some s) : returnSensorData file = .error .keyError := by
  have hg : odGet coeffs s = .error .keyError := by
    rcases readCoeff_fold (s := s) hr with ⟨h3, _⟩ | ⟨b, a, rest, c', e1, e2, e3, e4⟩
    · rw [h3]; rfl
    · exact absurd rfl (hm (s :: rest) (by rw [e1]; simp))
  unfold returnSensorData
  rw [hr]
  simp only [bind, Except.bind]
  generalize ([("iasi", ⟨.hirsRef, 1, [], []⟩)] : Shipped) = d
  revert hs d
  generalize hirsSensors = l
  induction l with
  | nil => intro hs; simp at hs
  | cons s' l ih =>
    intro hs d
    rw [List.foldlM_cons]
    have hk : ∀ x, odGet coeffs s' = .error x → x = .keyError := by
      intro x hx
      unfold odGet at hx
      split at hx
      · cases hx
      · cases hx; rfl
    cases hc : odGet coeffs s' with
    | error x =>
      rw [hk x hc]
      rfl
    | ok c =>
      simp only [bind, Except.bind, pure, Except.pure]
      refine ih ?_ _
      rcases List.mem_cons.1 hs with rfl | hs
      · rw [hg] at hc; cases hc
      · exact hs

/-! ### The factory with the files shipped -/

/-- A check of a dictionary by its numbers. -/
def SensorDict.check (e : SensorDict) : Bool :=
  match e.model with
  | .ref => e.variablesNum = 1 ∧ e.parameter = []
  | .avhrr3 => e.variablesNum = 4 ∧ e.parameter.length = 3
  | .avhrr3Scaled => e.variablesNum = 4 ∧ e.parameter.length = 3
  | .hirs3 => e.variablesNum = 5 ∧ e.parameter.length = 3 ∧ e.constant.length = 3
  | .mw3 => e.variablesNum = 9 ∧ e.parameter.length = 3 ∧ 91 ≤ e.constant.length
  | _ => false

theorem usable_of_pointwise {e : SensorDict} (hp : ∀ {δ : Type}, ∃ φ dφ, (e.model.run : SensorModel ℝ δ).Pointwise e.variablesNum (e.constant.map (fun q : ℚ => (q : ℝ))) e.parameter.length φ dφ) : e.Usable := by
  intro δ X n xt al t hX hn _
  obtain ⟨φ, dφ, h⟩ := hp (δ := δ)
  refine ⟨_, _, h X (e.parameter.map fun q : ℚ => (q : ℝ)) xt al t n hX hn (by simp), by simp, .inr ⟨_, rfl, by simp, ?_⟩⟩
  intro col hc
  obtain ⟨_, _, rfl⟩ := List.mem_map.1 hc
  simp

theorem SensorDict.usable_of_check {e : SensorDict} (h : e.check = true) : e.Usable := by
  obtain ⟨model, v, p, c⟩ := e
  cases model <;> simp only [SensorDict.check, decide_eq_true_eq, Bool.false_eq_true] at h
  · obtain ⟨rfl, rfl⟩ := h
    intro δ X n xt al t hX hn _
    obtain ⟨x, rfl⟩ : ∃ x, X = [x] := List.length_eq_one_iff.1 hX
    exact ⟨x, none, rfl, hn x (by simp), .inl ⟨rfl, rfl⟩⟩
  · obtain ⟨rfl, hp⟩ := h
    refine usable_of_pointwise ?_
    simp only [hp]
    exact ⟨_, _, Verif.avhrr3.pointwise rfl (by decide) _⟩
  · obtain ⟨rfl, hp⟩ := h
    refine usable_of_pointwise ?_
    simp only [hp]
    exact ⟨_, _, Verif.avhrr3Scaled.pointwise rfl (by decide) _⟩
  · obtain ⟨rfl, hp, hc⟩ := h
    refine usable_of_pointwise ?_
    simp only [hp]
    exact ⟨_, _, hirs_pointwise (by simpa using hc)⟩
  · obtain ⟨rfl, hp, hc⟩ := h
    intro δ X n xt al t hX hn hm
    obtain ⟨idx, rfl, hl, hi⟩ := hm rfl
    dsimp only at hX hm ⊢
    have h0 : (X.headD []).length = n := by
      cases X with
      | nil => simp at hX
      | cons x X => exact hn x (by simp)
    simp only [ModelName.run, mwModel]
    rw [if_neg, if_neg]
    · refine ⟨_, _, rfl, by simpa using hl, .inr ⟨_, rfl, by simp [hp], ?_⟩⟩
      intro col hcol
      obtain ⟨_, _, rfl⟩ := List.mem_map.1 hcol
      simpa using hl
    · rw [h0, hl]; simp
    · simp only [List.length_map, not_or, not_exists, not_and, not_not]
      refine ⟨by omega, by omega, by omega, fun i him => ?_⟩
      obtain ⟨h1, h2⟩ := hi i him
      have : ⌊i⌋₊ ≤ 90 := by
        have := Nat.floor_le_floor h2
        simpa using this
      omega

/-- The names whose sensors, apart from the references, have models that cannot be called. -/
def unusableNames : List String :=
  ["AVHRR_37um_2_rescaled", "AVHRR_37um_2", "AVHRR_11um_4_rescaled", "AVHRR_12um_4_rescaled", "AVHRR_37um_3_rescaled", "AVHRR_11um_4", "AVHRR_12um_4", "AVHRR_37um_3", "AVHRR_sim_4"]

/-- The models that take another number of arguments. -/
def ModelName.wrongArgs : ModelName → Bool
  | .avhrr4 | .avhrr4Scaled | .avhrr37_2 | .avhrr37_2Scaled | .avhrr37_3 | .avhrr37_3Scaled => true
  | _ => false

/-- Everything that is checked of the data shipped. -/
def factoryCheck : Py (List (String × Shipped)) → Bool
  | .ok f => factoryNames f = shippedNames ∧ f.all (fun nd => (nd.2.map (·.1)).Nodup ∧ nd.2 ≠ []) ∧
      f.all (fun nd => nd.1 ∈ unusableNames ∨ nd.2.all fun e => e.2.check || e.2.model == .hirsRef && (e.1 == "iasi")) ∧
      f.all (fun nd => nd.1 ∉ unusableNames ∨ (nd.2.all (fun e => if e.2.model = .ref then e.2.check else e.2.model.wrongArgs) ∧ nd.2.any fun e => e.2.model != .ref)) ∧
      f.all (fun nd => nd.2.all fun e => e.2.model ≠ .hirs3 ∨ ∃ v ∈ e.2.constant.take 1, ∃ a ∈ (e.2.constant.drop 1).take 1, ∃ b ∈ e.2.constant.drop 2,
        e.2.constant = [v, a, b] ∧ 0 < v ∧ 0 < b ∧ 0 < a + b)
  | .error _ => false

theorem factory_checked : factoryCheck (sensorDataFactory hirsCoefFiles) = true := by decide +kernel

theorem factory_ok : ∃ f, sensorDataFactory hirsCoefFiles = .ok f ∧ factoryCheck (.ok f) = true := by
  have h := factory_checked
  cases hf : sensorDataFactory hirsCoefFiles with
  | ok f => rw [hf] at h; exact ⟨f, rfl, h⟩
  | error e => rw [hf] at h; cases h

/-- **C78, names.** The 35 names are distinct; each gives a dictionary of its own, with distinct sensors, and any other name is a `KeyError`. -/
theorem C78_names : shippedNames.Nodup ∧ ∃ f, sensorDataFactory hirsCoefFiles = .ok f ∧ factoryNames f = shippedNames ∧
    (∀ (i : Nat) (name : String) (d : Shipped), f[i]? = some (name, d) → shippedNames[i]? = some name ∧ factoryGet f name = .ok d ∧ (d.map (·.1)).Nodup ∧ d ≠ []) ∧
    ∀ name, name ∉ shippedNames → factoryGet f name = .error .keyError := by
  have hn : shippedNames.Nodup := by decide +kernel
  obtain ⟨f, hf, hc⟩ := factory_ok
  simp only [factoryCheck, decide_eq_true_eq, List.all_eq_true] at hc
  obtain ⟨h1, h2, _⟩ := hc
  refine ⟨hn, f, hf, h1, ?_, fun name hname => odGet_missing (by unfold factoryNames at h1; rw [h1]; exact hname)⟩
  intro i name d hi
  have hm := List.mem_of_getElem? hi
  refine ⟨?_, odGet_mem (by unfold factoryNames at h1; rw [h1]; exact hn) hm, (h2 _ hm).1, (h2 _ hm).2⟩
  rw [← h1]
  unfold factoryNames
  rw [List.getElem?_map, hi]
  rfl

/-- A dictionary made of pairs with different keys. -/
theorem orderedDict_nodup {β : Type} {l : List (String × β)} (h : (l.map (·.1)).Nodup) : orderedDict l = l := by
  have key : ∀ (l d : List (String × β)), ((d ++ l).map (·.1)).Nodup → l.foldl (fun d e => odSet d e.1 e.2) d = d ++ l := by
    intro l
    induction l with
    | nil => intro d _; simp
    | cons e l ih =>
      intro d hd
      have hm : e.1 ∉ d.map (·.1) := by
        rw [List.map_append, List.map_cons, List.nodup_append] at hd
        exact fun h => hd.2.2 _ h _ (by simp) rfl
      have e1 : odSet d e.1 e.2 = d ++ [e] := by
        unfold odSet
        rw [if_neg]
        rw [List.any_eq_true]
        rintro ⟨x, hx, he⟩
        exact hm (List.mem_map.2 ⟨x, hx, by simpa using he⟩)
      rw [List.foldl_cons, e1, ih _ (by simpa using hd)]
      simp
  exact key l [] (by simpa using h)

/-- The name of a HIRS channel: two digits. -/
def hirsName (n : Nat) : String := "HIRS__Ch" ++ (if n < 10 then "0" else "") ++ toString n ++ "_3"

/-- **C78, HIRS.** Whatever the coefficient files, if the package can be imported then the data under the name of each of the 19 channels are made from the file of that channel. -/
theorem C78_channels (files : List (List (List String))) (f : List (String × Shipped)) (h : sensorDataFactory files = .ok f) :
    ∀ n, 1 ≤ n → n ≤ 19 → ∃ file d, files[n - 1]? = some file ∧ returnSensorData file = .ok d ∧ factoryGet f (hirsName n) = .ok d := by
  obtain ⟨hirs, h1, h2⟩ := bind_ok.1 h
  obtain rfl := (Except.ok.inj h2).symm
  obtain ⟨hl, hg⟩ := mapM_ok_get h1
  have hname : hirs.map (·.1) = (List.range 19).map fun i => hirsName (i + 1) := by
    apply List.ext_getElem?
    intro i
    rw [List.getElem?_map, List.getElem?_map]
    by_cases hi : i < 19
    · obtain ⟨nm, hnm, hnm'⟩ : ∃ b : Nat × String, hirsChannels[i]? = some b ∧ b.2 = hirsName (i + 1) := by
        revert hi; revert i; decide +kernel
      obtain ⟨c, hc, hc'⟩ := hg i _ hnm
      rw [hc', List.getElem?_range hi]
      simp only [Option.map_some, Option.some.injEq]
      split at hc
      · obtain ⟨d, _, hd⟩ := bind_ok.1 hc
        obtain rfl := (Except.ok.inj hd)
        exact hnm'
      · cases hc
    · rw [List.getElem?_eq_none (by rw [hl]; exact Nat.le_of_not_lt hi), List.getElem?_eq_none (by simp; omega)]
      rfl
  intro n hn1 hn2
  obtain ⟨nm, hnm, hnm', hnm''⟩ : ∃ b : Nat × String, hirsChannels[n - 1]? = some b ∧ b.1 = n ∧ b.2 = hirsName n := by
    have : ∀ n, n < 20 → 1 ≤ n → ∃ b : Nat × String, hirsChannels[n - 1]? = some b ∧ b.1 = n ∧ b.2 = hirsName n := by
      decide +kernel
    exact this n (by omega) hn1
  obtain ⟨c, hc, hc'⟩ := hg _ _ hnm
  split at hc
  · rename_i file hfile
    obtain ⟨d, hd, hd'⟩ := bind_ok.1 hc
    obtain rfl := Except.ok.inj hd'
    rw [hnm'] at hfile
    refine ⟨file, d, hfile, hd, ?_⟩
    unfold factoryGet
    rw [orderedDict_nodup]
    · refine odGet_mem ?_ ?_
      · simp only [List.map_append, hname]
        decide +kernel
      · rw [← hnm'']
        exact List.mem_append_left _ (List.mem_append_right _ (List.mem_of_getElem? hc'))
    · simp only [List.map_append, hname]
      decide +kernel
  · cases hc

/-- **C78.** For all names but nine, every sensor, apart from the HIRS reference (C48_reference_fails), can be used with its own data. -/
theorem C78_usable_partial : ∃ f, sensorDataFactory hirsCoefFiles = .ok f ∧ ∀ name ∈ shippedNames, name ∉ unusableNames → ∃ d, factoryGet f name = .ok d ∧
    ∀ s e, (s, e) ∈ d → e.Usable ∨ (s = "iasi" ∧ e.model = .hirsRef) := by
  obtain ⟨hn, f, hf, h1, h2, _⟩ := C78_names
  obtain ⟨f', hf', hc⟩ := factory_ok
  rw [hf] at hf'
  cases hf'
  simp only [factoryCheck, decide_eq_true_eq, List.all_eq_true] at hc
  obtain ⟨_, _, h3, _⟩ := hc
  refine ⟨f, hf, fun name hname hu => ?_⟩
  rw [← h1] at hname
  obtain ⟨⟨nm, d⟩, hm, rfl⟩ := List.mem_map.1 hname
  obtain ⟨i, hi⟩ := List.mem_iff_getElem?.1 hm
  refine ⟨d, (h2 i nm d hi).2.1, fun s e he => ?_⟩
  rcases h3 _ hm with h | h
  · exact absurd h hu
  · have := h _ he
    simp only [Bool.or_eq_true, Bool.and_eq_true, beq_iff_eq] at this
    rcases this with h | h
    · exact .inl (SensorDict.usable_of_check h)
    · exact .inr ⟨h.2, h.1⟩

/-- **C78 is false of the code** for nine names: apart from the references, no sensor's model can be called; the call is a `TypeError` for every input. -/
theorem C78_unusable : ∃ f, sensorDataFactory hirsCoefFiles = .ok f ∧ ∀ name ∈ unusableNames, ∃ d, factoryGet f name = .ok d ∧ (∃ s e, (s, e) ∈ d ∧ e.model ≠ .ref) ∧
    ∀ s e, (s, e) ∈ d → e.Usable ∧ e.model = .ref ∨
      ∀ {δ : Type} (X : List (List ℝ)) (a c : List ℝ) (xt al : Option (List ℝ)) (t : Option (List δ)), e.model.run X a c xt al t = .error .typeError := by
  obtain ⟨hn, f, hf, h1, h2, _⟩ := C78_names
  obtain ⟨f', hf', hc⟩ := factory_ok
  rw [hf] at hf'
  cases hf'
  simp only [factoryCheck, decide_eq_true_eq, List.all_eq_true] at hc
  obtain ⟨_, _, _, h4, _⟩ := hc
  refine ⟨f, hf, fun name hu => ?_⟩
  have hname : name ∈ factoryNames f := by
    rw [h1]
    have : ∀ n ∈ unusableNames, n ∈ shippedNames := by decide +kernel
    exact this name hu
  obtain ⟨⟨nm, d⟩, hm, rfl⟩ := List.mem_map.1 hname
  obtain ⟨i, hi⟩ := List.mem_iff_getElem?.1 hm
  refine ⟨d, (h2 i nm d hi).2.1, ?_, fun s e he => ?_⟩
  · rcases h4 _ hm with h | h
    · exact absurd hu h
    · obtain ⟨e, he, hr⟩ := List.any_eq_true.1 h.2
      exact ⟨e.1, e.2, he, by simpa using hr⟩
  rcases h4 _ hm with h | h
  · exact absurd hu h
  · have := h.1 _ he
    split at this
    · rename_i hr
      exact .inl ⟨SensorDict.usable_of_check this, hr⟩
    · right
      intro δ X a c xt al t
      obtain ⟨model, v, p, k⟩ := e
      cases model <;> first | (simp [ModelName.wrongArgs] at this; done) | rfl

/-- **C78, HIRS constants are physical.** For every channel and sensor, whenever the target is warmer than 1 K the radiance of the calibration target is positive and the
conditions under which the model is differentiable (C48) hold. -/
theorem C78_hirs_physical : ∃ f, sensorDataFactory hirsCoefFiles = .ok f ∧ ∀ name d s e, (name, d) ∈ f → (s, e) ∈ d → e.model = .hirs3 →
    ∃ v a b : ℚ, e.constant = [v, a, b] ∧ 0 < v ∧ ∀ T : ℝ, 1 ≤ T → (a : ℝ) + b * T ≠ 0 ∧ Real.exp (v * planckH / (boltzK * (a + b * T))) ≠ 1 ∧ 0 < planck v (a + b * T) := by
  obtain ⟨f, hf, hc⟩ := factory_ok
  simp only [factoryCheck, decide_eq_true_eq, List.all_eq_true] at hc
  obtain ⟨_, _, _, _, h5⟩ := hc
  refine ⟨f, hf, fun name d s e hd he hm => ?_⟩
  rcases h5 _ hd _ he with h | ⟨v, _, a, _, b, _, h1, hv, hb, hab⟩
  · exact absurd hm h
  refine ⟨v, a, b, h1, hv, fun T hT => ?_⟩
  have hv' : (0 : ℝ) < v := by exact_mod_cast hv
  have hb' : (0 : ℝ) < b := by exact_mod_cast hb
  have hab' : (0 : ℝ) < a + b := by exact_mod_cast hab
  have hpos : (0 : ℝ) < a + b * T := by nlinarith
  have hH : (0 : ℝ) < planckH := by unfold planckH; norm_num
  have hK : (0 : ℝ) < boltzK := by unfold boltzK; norm_num
  have hC : (0 : ℝ) < lightC := by unfold lightC; norm_num
  have hx : 0 < (v : ℝ) * planckH / (boltzK * (a + b * T)) := by positivity
  have he1 : 1 < Real.exp (v * planckH / (boltzK * (a + b * T))) := Real.one_lt_exp_iff.2 hx
  refine ⟨hpos.ne', he1.ne', ?_⟩
  unfold planck
  have : (0 : ℝ) < Real.exp (v * planckH / (boltzK * (a + b * T))) - 1 := by linarith
  have h2 : (0 : ℝ) < 2.0 := by norm_num
  positivity

/-- **C78, reading the data into a match-up.** For every name, a match-up between sensors that all have an entry gets, for each of them, the default parameters and constants of its
entry; a match-up with any other sensor is refused. -/
theorem C78_extraction {σ : Type} (dflt : σ) : ∃ f, sensorDataFactory hirsCoefFiles = .ok f ∧ ∀ name ∈ shippedNames, ∃ d, factoryGet f name = .ok d ∧ ∀ sensors : List String,
    ((∀ s ∈ sensors, s ∈ d.map (·.1)) → ∃ x : Extracted ℝ (SensorModel ℝ δ) σ, extractSensorData dflt d.data sensors = .ok x ∧
      ∀ (i : Nat) (s : String), sensors[i]? = some s → ∃ e, (s, e) ∈ d ∧ selectBy x.a x.a_sensor s = e.parameter.map (fun q : ℚ => (q : ℝ)) ∧
        selectBy x.constant x.constant_sensor s = e.constant.map (fun q : ℚ => (q : ℝ)) ∧ x.sensor_model[i]? = some e.model.run) ∧
    ((∃ s ∈ sensors, s ∉ d.map (·.1)) → extractSensorData dflt (d.data : SensorData ℝ (SensorModel ℝ δ) σ) sensors = .error .keyError) := by
  obtain ⟨hn, f, hf, h1, h2, _⟩ := C78_names
  refine ⟨f, hf, fun name hname => ?_⟩
  rw [← h1] at hname
  obtain ⟨⟨nm, d⟩, hm, rfl⟩ := List.mem_map.1 hname
  obtain ⟨i, hi⟩ := List.mem_iff_getElem?.1 hm
  obtain ⟨_, hd, hnd, _⟩ := h2 i nm d hi
  have hk : ((d.data : SensorData ℝ (SensorModel ℝ δ) σ)).map (·.1) = d.map (·.1) := by simp [Shipped.data]
  have hnd' : ((d.data : SensorData ℝ (SensorModel ℝ δ) σ).map (·.1)).Nodup := by rw [hk]; exact hnd
  have huniq : ∀ s e e', (s, e) ∈ d → (s, e') ∈ d → e = e' := by
    intro s e e' he he'
    have a1 := odGet_mem hnd he
    have a2 := odGet_mem hnd he'
    rw [a1] at a2
    cases a2
    rfl
  have hmem : ∀ s (x : SensorEntry ℝ (SensorModel ℝ δ) σ), (s, x) ∈ (d.data : SensorData ℝ (SensorModel ℝ δ) σ) → ∃ e, (s, e) ∈ d ∧
      x = { parameter := e.parameter.map (fun q : ℚ => (q : ℝ)), constant := e.constant.map (fun q : ℚ => (q : ℝ)), model := e.model.run } := by
    intro s x hx
    obtain ⟨e, he, hx⟩ := List.mem_map.1 hx
    cases hx
    exact ⟨e.2, he, rfl⟩
  refine ⟨d, hd, fun sensors => ⟨fun hs => ?_, ?_⟩⟩
  · cases hx : extractSensorData dflt (d.data : SensorData ℝ (SensorModel ℝ δ) σ) sensors with
    | error e =>
      exfalso
      unfold extractSensorData at hx
      cases hmm : sensors.mapM (extractModel dflt (d.data : SensorData ℝ (SensorModel ℝ δ) σ)) with
      | ok m => rw [hmm] at hx; cases hx
      | error e' =>
        obtain ⟨s, hss, he⟩ := mapM_error hmm
        unfold extractModel SensorData.get at he
        obtain ⟨y, hy, rfl⟩ := List.mem_map.1 (hk ▸ hs s hss : s ∈ (d.data : SensorData ℝ (SensorModel ℝ δ) σ).map (·.1))
        cases hff : (d.data : SensorData ℝ (SensorModel ℝ δ) σ).find? (fun e => e.1 == y.1) with
        | none => exact absurd (List.find?_eq_none.1 hff y hy) (by simp)
        | some z =>
          obtain ⟨e, _, hz⟩ := hmem z.1 z.2 (List.mem_of_find?_eq_some hff)
          rw [hff] at he
          simp only [bind, Except.bind, hz] at he
          cases he
    | ok x =>
      obtain ⟨_, _, _, _, k5, _, k7⟩ := C12_extraction dflt _ hnd' sensors x hx
      refine ⟨x, rfl, fun j s hj => ?_⟩
      obtain ⟨y, hy, q1, q2⟩ := k5 s (List.mem_of_getElem? hj)
      obtain ⟨z, hz, q3⟩ := k7 j s hj
      obtain ⟨e, he, rfl⟩ := hmem s y hy
      obtain ⟨e', he', rfl⟩ := hmem s z hz
      rw [huniq s e' e he' he] at q3
      exact ⟨e, he, q1, q2, q3⟩
  · rintro ⟨s, hs, hns⟩
    refine (C12_rejects dflt _ hnd' sensors).2 ⟨s, hs, .inl fun x hx => hns ?_⟩
    rw [← hk]
    exact List.mem_map.2 ⟨_, hx, rfl⟩

/-- **C78 is false of the code** for the 3.7 micron data also in the number of parameters: the formulas with two (three) parameters give six (eight) derivatives for each match-up,
but three (four) parameters are declared with four (five) variables. -/
theorem C78_37um_parameters : (∀ x a, (avhrr37_2.derivs x a).length = 6 ∧ (avhrr37_2Scaled.derivs x a).length = 6 ∧ (avhrr37_3.derivs x a).length = 8 ∧ (avhrr37_3Scaled.derivs x a).length = 8) ∧
    ∃ f, sensorDataFactory hirsCoefFiles = .ok f ∧ ∀ name ∈ ["AVHRR_37um_2", "AVHRR_37um_2_rescaled", "AVHRR_37um_3", "AVHRR_37um_3_rescaled"], ∃ d, factoryGet f name = .ok d ∧
      ((∃ e, ("n19", e) ∈ d ∧ (e.model = .avhrr37_2 ∨ e.model = .avhrr37_2Scaled) ∧ e.variablesNum + e.parameter.length = 7) ∨
       ∃ e, ("n19", e) ∈ d ∧ (e.model = .avhrr37_3 ∨ e.model = .avhrr37_3Scaled) ∧ e.variablesNum + e.parameter.length = 9) := by
  refine ⟨fun x a => ⟨rfl, rfl, rfl, rfl⟩, ?_⟩
  have h : (match sensorDataFactory hirsCoefFiles with
      | .ok f => (["AVHRR_37um_2", "AVHRR_37um_2_rescaled", "AVHRR_37um_3", "AVHRR_37um_3_rescaled"] : List String).all fun name =>
        match factoryGet f name with
        | .ok d => match odGet d "n19" with
          | .ok e => decide ((e.model = .avhrr37_2 ∨ e.model = .avhrr37_2Scaled) ∧ e.variablesNum + e.parameter.length = 7 ∨
              (e.model = .avhrr37_3 ∨ e.model = .avhrr37_3Scaled) ∧ e.variablesNum + e.parameter.length = 9)
          | .error _ => false
        | .error _ => false
      | .error _ => false) = true := by decide +kernel
  split at h
  · rename_i f hf
    refine ⟨f, hf, fun name hn => ?_⟩
    have := List.all_eq_true.1 h name hn
    split at this
    · rename_i d hd
      split at this
      · rename_i e he
        have hm := odGet_ok he
        rcases of_decide_eq_true this with h | h
        · exact ⟨d, hd, .inl ⟨e, hm, h⟩⟩
        · exact ⟨d, hd, .inr ⟨e, hm, h⟩⟩
      · cases this
    · cases this
  · cases h

/-! ### Microwave -/

/-- The constants of a dictionary at an across-track position. -/
noncomputable def SensorDict.mw (e : SensorDict) (i : ℝ) : MwConst := mwConst (e.constant.map (fun q : ℚ => (q : ℝ))) i

/-- The Earth angles are symmetric about position 45.5, so the 90 positions of a scan are numbered 1 to 90. -/
theorem mw_symmetric (e : SensorDict) (i : ℝ) : (e.mw (91 - i)).thetaE = -(e.mw i).thetaE := by
  show Real.pi * 1.111 * (91 - i - 45.5) / 180.0 = -(Real.pi * 1.111 * (i - 45.5) / 180.0)
  have h : (91 : ℝ) - i - 45.5 = -(i - 45.5) := by
    have : (45.5 : ℝ) = 91 / 2 := by norm_num
    rw [this]
    ring
  rw [h, mul_neg, neg_div]

/-- **C78 is false of the code** for the microwave sensors. At the last position, 90, of a scan the antenna correction read is the weight of the first thermometer, which is 2 for the MHS
sensors: the measurand is the mean of what it would be with the correction 1 that holds at the other positions and the cosmic background. -/
theorem C78_mw_last_position : (∀ i : Nat, i < 90 → (mhsDict.mw i).g = 1) ∧ (mhsDict.mw 90).g = 2 ∧
    ∀ x p : Nat → ℝ, (mhsDict.mw 90).value x p = ({ mhsDict.mw 90 with g := 1 }.value x p + (mhsDict.mw 90).rj * (mhsDict.mw 90).lcmb) / 2 := by
  have hg : ∀ i : Nat, (mhsDict.mw i).g = ((mhsDict.constant.getD i 0 : ℚ) : ℝ) := by
    intro i
    simp only [SensorDict.mw, mwConst, Nat.floor_natCast, List.getD_eq_getElem?_getD, List.getElem?_map]
    cases mhsDict.constant[i]? <;> simp
  have h90 : (mhsDict.mw 90).g = 2 := by
    have := hg 90
    rw [show ((90 : Nat) : ℝ) = 90 by norm_num] at this
    rw [this, show mhsDict.constant.getD 90 0 = 2 by decide +kernel]
    norm_num
  refine ⟨fun i hi => ?_, h90, fun x p => ?_⟩
  · rw [hg i]
    have : ∀ i < 90, mhsDict.constant.getD i 0 = 1 := by decide +kernel
    rw [this i hi]
    norm_num
  · have key : ∀ k : MwConst, k.g = 2 → k.value x p = ({ k with g := 1 }.value x p + k.rj * k.lcmb) / 2 := by
      intro k hk
      have e : { k with g := 1 }.value x p =
          k.rj * (1.0 / 1 * (k.lmePrime x p + 0.5 * p 1 * k.cosangs * (k.lict x - k.lmePrime x p) - (1.0 - 1) * k.lcmb)) := rfl
      rw [e]
      unfold MwConst.value
      rw [hk, show (1.0 : ℝ) = 1 by norm_num]
      generalize k.lmePrime x p + 0.5 * p 1 * k.cosangs * (k.lict x - k.lmePrime x p) = B
      ring
    exact key _ h90

/-- **C78 is false of the code** for the AMSU-B sensors: seven weights are declared for five thermometers; the model takes the last five, so the fourth thermometer does not count. The MHS
sensors use the five weights declared. -/
theorem C78_amsub_weights : (∀ i : ℝ, (List.range 5).map (amsubDict.mw i).w = [1, 1, 1, 0, 1]) ∧ (∀ i : ℝ, (List.range 5).map (mhsDict.mw i).w = [2, 1, 1, 1, 1]) ∧
    wAmsubT.take 5 = [1, 1, 1, 1, 1] ∧
    ∀ (i T : ℝ) (x p : Nat → ℝ), (amsubDict.mw i).value (Function.update x 5 T) p = (amsubDict.mw i).value x p := by
  have hw : ∀ (e : SensorDict) (i : ℝ) (j : Nat), (e.mw i).w j = ((e.constant.reverse.getD (8 - j) 0 : ℚ) : ℝ) := by
    intro e i j
    simp only [SensorDict.mw, mwConst, ← List.map_reverse, List.getD_eq_getElem?_getD, List.getElem?_map]
    cases e.constant.reverse[8 - j]? <;> simp
  have ha : ∀ i : ℝ, (List.range 5).map (amsubDict.mw i).w = [1, 1, 1, 0, 1] := by
    intro i
    have : (List.range 5).map (fun j => amsubDict.constant.reverse.getD (8 - j) 0) = [1, 1, 1, 0, 1] := by decide +kernel
    have h2 : (List.range 5).map (amsubDict.mw i).w = ((List.range 5).map (fun j => amsubDict.constant.reverse.getD (8 - j) 0)).map (fun q : ℚ => (q : ℝ)) := by
      rw [List.map_map]
      exact List.map_congr_left fun j _ => hw _ _ _
    rw [h2, this]
    norm_num
  refine ⟨ha, ?_, by decide +kernel, ?_⟩
  · intro i
    have : (List.range 5).map (fun j => mhsDict.constant.reverse.getD (8 - j) 0) = [2, 1, 1, 1, 1] := by decide +kernel
    have h2 : (List.range 5).map (mhsDict.mw i).w = ((List.range 5).map (fun j => mhsDict.constant.reverse.getD (8 - j) 0)).map (fun q : ℚ => (q : ℝ)) := by
      rw [List.map_map]
      exact List.map_congr_left fun j _ => hw _ _ _
    rw [h2, this]
    norm_num
  · intro i T x p
    have h3 : (amsubDict.mw i).w 3 = 0 := by
      have := ha i
      simp only [List.range_succ, List.range_zero, List.nil_append, List.cons_append, List.map_cons, List.map_nil, List.cons.injEq] at this
      exact this.2.2.2.1
    have ht : (amsubDict.mw i).tict (Function.update x 5 T) = (amsubDict.mw i).tict x := by
      simp only [MwConst.tict, h3, Function.update, zero_mul]
      norm_num
    have hl : (amsubDict.mw i).lict (Function.update x 5 T) = (amsubDict.mw i).lict x := by simp only [MwConst.lict, ht]
    simp only [MwConst.value, MwConst.lmePrime, hl]
    simp [Function.update]

/-- The sensors of the microwave data. -/
theorem C78_mw_sensors : mwData = [("18", refDict), ("A", mhsDict), ("B", mhsDict), ("19", mhsDict), ("17", amsubDict), ("16", amsubDict), ("15", amsubDict)] := by
  decide +kernel

/-- A match-up of the simulated sensors has its default parameters: an entry of the data and the numbers of a HIRS line. -/
theorem C78_case : (∃ f, sensorDataFactory hirsCoefFiles = .ok f ∧ ∃ d, factoryGet f "HIRS__Ch19_3" = .ok d ∧ odGet d "n11" = .ok ⟨.hirs3, 5, [0, 0, 0], [79620000000000, 3 / 40, 997479 / 1000000]⟩) ∧
    CoefficientsOf coefCh19 "n11" [79620000000000, 3 / 40, 997479 / 1000000] := by
  refine ⟨?_, ?_⟩
  · have h : (match sensorDataFactory hirsCoefFiles with
      | .ok f => match factoryGet f "HIRS__Ch19_3" with
        | .ok d => match odGet d "n11" with
          | .ok e => decide (e = ⟨.hirs3, 5, [0, 0, 0], [79620000000000, 3 / 40, 997479 / 1000000]⟩)
          | .error _ => false
        | .error _ => false
      | .error _ => false) = true := by decide +kernel
    split at h
    · rename_i f hf
      split at h
      · rename_i d hd
        split at h
        · rename_i e he
          rw [of_decide_eq_true h] at he
          exact ⟨f, hf, d, hd, he⟩
        · cases h
      · cases h
    · cases h
  · exact ⟨(coefCh19.drop 1).take 7, coefCh19.drop 9, (coefCh19.getD 8 []).drop 1, by decide +kernel, by decide +kernel, by kernel_rfl⟩

end Verif
