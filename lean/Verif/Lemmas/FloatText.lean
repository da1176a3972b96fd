import Verif.Lemmas.Double
import Verif.Lemmas.NatStr
import Verif.Lemmas.JsonNum
import Verif.Lemmas.Times
import Verif.Spec.Float
/-! # Texts of floats -/
namespace Jq

theorem digitsOnly_iff (s : Str) : DigitsOnly s ↔ ∀ c ∈ s, isDig c = true := by
  simp [DigitsOnly, isDig]

theorem cutSign_sound (s : Str) : SignOf s (cutSign s).1 (cutSign s).2 := by
  unfold cutSign
  split
  · exact .inl ⟨rfl, rfl⟩
  · exact .inr ⟨.inr rfl, rfl⟩
  · exact .inr ⟨.inl rfl, rfl⟩

theorem cutSign_complete {s : Str} {neg : Bool} {b : Str} (h : SignOf s neg b) (hb : ∀ c ∈ b.head?, c ≠ '-' ∧ c ≠ '+') :
    cutSign s = (neg, b) := by
  rcases h with ⟨rfl, rfl⟩ | ⟨rfl | rfl, rfl⟩
  · rfl
  · unfold cutSign
    split
    · exact absurd rfl (hb _ rfl).1
    · exact absurd rfl (hb _ rfl).2
    · rfl
  · rfl

theorem dig_head {ds r : Str} (h : ∀ c ∈ ds, isDig c = true) (h0 : ds ≠ []) : ∀ c ∈ (ds ++ r).head?, isDig c = true := by
  cases ds with
  | nil => exact absurd rfl h0
  | cons d ds => intro c hc; exact h c (by simp_all)

theorem dig_not_sign {c : Char} (h : isDig c = true) : c ≠ '-' ∧ c ≠ '+' :=
  ⟨isDig_ne h (by decide), isDig_ne h (by decide)⟩

theorem expPart_iff (s : Str) (e : Int) : expPart s = some e ↔ ExpOf s e := by
  cases s with
  | nil => simp [expPart, ExpOf, eq_comm]
  | cons x s =>
    simp only [expPart, ExpOf]
    by_cases hx : x = 'e' ∨ x = 'E'
    · rw [if_pos hx]
      constructor
      · intro h
        right
        split at h
        · rename_i hd
          have hn := num_of hd.1 hd.2
          cases h
          rcases cutSign_sound s with ⟨h1, h2⟩ | ⟨h1 | h1, h2⟩
          · exact ⟨x, ['-'], _, _, by rw [List.singleton_append, ← h1], hx, hn, .inl ⟨rfl, by rw [h2]; rfl⟩⟩
          · exact ⟨x, [], _, _, by rw [List.nil_append, ← h1], hx, hn, .inr ⟨.inl rfl, by rw [h2]; rfl⟩⟩
          · exact ⟨x, ['+'], _, _, by rw [List.singleton_append, ← h1], hx, hn, .inr ⟨.inr rfl, by rw [h2]; rfl⟩⟩
        · cases h
      · rintro (⟨h, _⟩ | ⟨x', sign, ds, n, h, _, hn, hs⟩)
        · cases h
        · obtain ⟨rfl, rfl⟩ := List.cons.inj h
          have hd := num_all hn
          have hb : ∀ c ∈ ds.head?, c ≠ '-' ∧ c ≠ '+' := fun c hc =>
            dig_not_sign (List.all_eq_true.1 hd c (List.mem_of_head? hc))
          have hsp : cutSign (sign ++ ds) = (decide (sign = ['-']), ds) := by
            refine cutSign_complete ?_ hb
            rcases hs with ⟨rfl, _⟩ | ⟨rfl | rfl, _⟩
            · exact .inl ⟨rfl, rfl⟩
            · exact .inr ⟨.inl rfl, rfl⟩
            · exact .inr ⟨.inr rfl, rfl⟩
          rw [hsp, if_pos ⟨hn.1, hd⟩, num_val hn]
          rcases hs with ⟨rfl, rfl⟩ | ⟨rfl | rfl, rfl⟩ <;> simp
    · rw [if_neg hx]
      constructor
      · intro h; cases h
      · rintro (⟨h, _⟩ | ⟨x', _, _, _, h, hx', _⟩)
        · cases h
        · cases h; exact absurd hx' hx

theorem exp_head {s : Str} {e : Int} (h : ExpOf s e) : ∀ c ∈ s.head?, c = 'e' ∨ c = 'E' := by
  rcases h with ⟨rfl, _⟩ | ⟨x, _, _, _, rfl, hx, _⟩
  · simp
  · intro c hc; simp at hc; subst hc; exact hx

theorem exp_not_dig {s : Str} {e : Int} (h : ExpOf s e) : ∀ c ∈ s.head?, isDig c = false := by
  intro c hc
  rcases exp_head h c hc with rfl | rfl <;> decide

theorem decParts_iff (s : Str) (d : Nat) (e : Int) : decParts s = some (d, e) ↔ DecText s d e := by
  constructor
  · intro h
    simp only [decParts] at h
    obtain ⟨h1, h2⟩ := takeWhile_digits s
    by_cases hp : (s.dropWhile isDig).head? = some '.'
    · simp only [hp, if_true] at h
      split at h
      · cases h
      rename_i hne
      simp only [Option.map_eq_some_iff, Prod.mk.injEq] at h
      obtain ⟨e0, he, rfl, rfl⟩ := h
      have he := (expPart_iff _ _).1 he
      obtain ⟨h3, h4⟩ := takeWhile_digits ((s.dropWhile isDig).drop 1)
      refine ⟨s.takeWhile isDig, ((s.dropWhile isDig).drop 1).takeWhile isDig, _, _, e0, ?_, (digitsOnly_iff _).2 h2,
        (digitsOnly_iff _).2 h4, .inl rfl, he, ?_, rfl⟩
      · conv => lhs; rw [h1]
        congr 1
        have : s.dropWhile isDig = '.' :: (s.dropWhile isDig).drop 1 := by
          cases hs : s.dropWhile isDig with
          | nil => rw [hs] at hp; cases hp
          | cons c r => rw [hs] at hp; simp at hp; simp [hp]
        rw [List.cons_append, ← h3]
        exact this
      · exact num_of hne (by simp only [List.all_append, Bool.and_eq_true, List.all_eq_true]; exact ⟨h2, h4⟩)
    · simp only [hp, if_false] at h
      split at h
      · cases h
      rename_i hne
      simp only [Option.map_eq_some_iff, Prod.mk.injEq] at h
      obtain ⟨e0, he, rfl, rfl⟩ := h
      have he := (expPart_iff _ _).1 he
      exact ⟨s.takeWhile isDig, [], [], _, e0, h1, (digitsOnly_iff _).2 h2, by simp [DigitsOnly], .inr ⟨rfl, rfl⟩, he,
        num_of hne (by simp), rfl⟩
  · rintro ⟨whole, frac, point, ex, e0, rfl, hw, hf, hp, he, hn, rfl⟩
    rw [digitsOnly_iff] at hw hf
    have he' := (expPart_iff _ _).2 he
    rcases hp with rfl | ⟨rfl, rfl⟩
    · obtain ⟨h1, h2⟩ := takeWhile_append_head (r := '.' :: frac ++ ex) hw (by simp; decide)
      obtain ⟨h3, h4⟩ := takeWhile_append_head (r := ex) hf (exp_not_dig he)
      simp only [decParts, h1, h2]
      simp only [List.cons_append, List.head?_cons, if_true, List.drop_succ_cons, List.drop_zero, h3, h4]
      rw [if_neg hn.1, he', num_val hn]
      rfl
    · obtain ⟨h1, h2⟩ := takeWhile_append_head (r := [] ++ ex) hw (by simpa using exp_not_dig he)
      have hd : ([] ++ ex).head? ≠ some '.' := by
        intro h
        rcases exp_head he '.' (by simpa using h) with h | h <;> cases h
      simp only [decParts, h1, h2, hd, if_false]
      rw [if_neg hn.1, List.nil_append, he', num_val hn]
      rfl

theorem natOfDigits_foldl (b : Str) (x : Nat) : b.foldl (fun n c => 10 * n + digVal c) x = x * 10 ^ b.length + natOfDigits b := by
  induction b generalizing x with
  | nil => simp [natOfDigits]
  | cons c b ih =>
    simp only [natOfDigits, List.foldl_cons, List.length_cons]
    rw [ih, ih (10 * 0 + digVal c), Nat.pow_succ]
    simp only [Nat.mul_zero, Nat.zero_add, Nat.add_mul]
    rw [Nat.mul_comm 10 x, Nat.mul_assoc x, Nat.mul_comm 10]
    omega

theorem natOfDigits_app (a b : Str) : natOfDigits (a ++ b) = natOfDigits a * 10 ^ b.length + natOfDigits b := by
  conv => lhs; rw [natOfDigits, List.foldl_append, natOfDigits_foldl]
  rfl

theorem natOfDigits_zeros (k : Nat) : natOfDigits (List.replicate k '0') = 0 := by
  induction k with
  | zero => rfl
  | succ k ih =>
    rw [List.replicate_succ, show '0' :: List.replicate k '0' = ['0'] ++ List.replicate k '0' from rfl, natOfDigits_app, ih]
    simp [natOfDigits, digVal]

theorem ofRatio_scale (neg : Bool) (p q : Nat) {c : Nat} (hc : 0 < c) : Dbl.ofRatio neg (p * c) (q * c) = Dbl.ofRatio neg p q := by
  rw [Dbl.ofRatio, Dbl.ofRatio, Nat.mul_right_comm, nearest_scale _ _ hc]

theorem ofDec_eq (neg : Bool) (d : Nat) (e : Int) (a b : Nat) (h : e = a - b) : Dbl.ofDec neg d e = Dbl.ofRatio neg (d * 10 ^ a) (10 ^ b) := by
  unfold Dbl.ofDec
  split
  · rw [show a = e.toNat + b by omega, Nat.pow_add, ← Nat.mul_assoc]
    have := ofRatio_scale neg (d * 10 ^ e.toNat) 1 (pow_pos10 b)
    rw [Nat.one_mul] at this
    exact this.symm
  · rw [show b = (-e).toNat + a by omega, Nat.pow_add]
    exact (ofRatio_scale neg d _ (pow_pos10 a)).symm

theorem sameNumber_base {d d' : Nat} {e e' : Int} (k : Nat) (h : 0 ≤ e + k) (h' : 0 ≤ e' + k) :
    SameNumber d e d' e' ↔ d * 10 ^ (e + k).toNat = d' * 10 ^ (e' + k).toNat := by
  rw [SameNumber]
  rcases Int.le_total e e' with hle | hle
  · have h1 : (e - e').toNat = 0 := by omega
    have h2 : (e' + k).toNat = (e' - e).toNat + (e + k).toNat := by omega
    rw [h1, h2, Nat.pow_add, ← Nat.mul_assoc, Nat.pow_zero, Nat.mul_one, Nat.mul_left_inj (Nat.ne_of_gt (pow_pos10 _))]
  · have h1 : (e' - e).toNat = 0 := by omega
    have h2 : (e + k).toNat = (e - e').toNat + (e' + k).toNat := by omega
    rw [h1, h2, Nat.pow_add, ← Nat.mul_assoc, Nat.pow_zero, Nat.mul_one, Nat.mul_left_inj (Nat.ne_of_gt (pow_pos10 _))]

theorem SameNumber.refl (d : Nat) (e : Int) : SameNumber d e d e := rfl

theorem SameNumber.symm {d d' : Nat} {e e' : Int} (h : SameNumber d e d' e') : SameNumber d' e' d e := Eq.symm h

theorem SameNumber.trans {d d' d'' : Nat} {e e' e'' : Int} (h : SameNumber d e d' e') (h' : SameNumber d' e' d'' e'') :
    SameNumber d e d'' e'' := by
  have k1 : 0 ≤ e + ((e.natAbs + e'.natAbs + e''.natAbs : Nat) : Int) := by omega
  have k2 : 0 ≤ e' + ((e.natAbs + e'.natAbs + e''.natAbs : Nat) : Int) := by omega
  have k3 : 0 ≤ e'' + ((e.natAbs + e'.natAbs + e''.natAbs : Nat) : Int) := by omega
  rw [sameNumber_base _ k1 k3]
  rw [sameNumber_base _ k1 k2] at h
  rw [sameNumber_base _ k2 k3] at h'
  exact h.trans h'

theorem SameNumber.shift (d z : Nat) {e e' : Int} (h : e' = e + z) : SameNumber (d * 10 ^ z) e d e' := by
  rw [SameNumber, show (e - e').toNat = 0 by omega, show (e' - e).toNat = z by omega, Nat.pow_zero, Nat.mul_one]

theorem ofDec_same (neg : Bool) {d d' : Nat} {e e' : Int} (h : SameNumber d e d' e') : Dbl.ofDec neg d e = Dbl.ofDec neg d' e' := by
  have k1 : 0 ≤ e + ((e.natAbs + e'.natAbs : Nat) : Int) := by omega
  have k2 : 0 ≤ e' + ((e.natAbs + e'.natAbs : Nat) : Int) := by omega
  rw [sameNumber_base _ k1 k2] at h
  rw [ofDec_eq neg d e (e + ((e.natAbs + e'.natAbs : Nat) : Int)).toNat (e.natAbs + e'.natAbs) (by omega),
    ofDec_eq neg d' e' (e' + ((e.natAbs + e'.natAbs : Nat) : Int)).toNat (e.natAbs + e'.natAbs) (by omega), h]

theorem natStr_num (n : Nat) : Num (natStr n) n := by
  have := num_of (natStr_ne_nil n) (List.all_eq_true.2 (natStr_digits n))
  rwa [natOfDigits_natStr] at this

theorem num_intro {w : Str} (h0 : w ≠ []) (h : ∀ c ∈ w, isDig c = true) : Num w (natOfDigits w) := num_of h0 (List.all_eq_true.2 h)

theorem digitsOnly_append {a b : Str} (ha : DigitsOnly a) (hb : DigitsOnly b) : DigitsOnly (a ++ b) := by
  intro c hc
  rcases List.mem_append.1 hc with h | h
  · exact ha c h
  · exact hb c h

theorem digitsOnly_zeros (k : Nat) : DigitsOnly (List.replicate k '0') := by
  intro c hc
  rw [(List.mem_replicate.1 hc).2]
  decide

theorem digitsOnly_zero : DigitsOnly ['0'] := digitsOnly_zeros 1

/-- What `repr` writes for some digits is the text of their number. -/
theorem reprDigits_dec (ds : Str) (pt : Int) (hd : DigitsOnly ds) (h0 : ds ≠ []) :
    ∃ d e, DecText (reprDigits ds pt) d e ∧ SameNumber d e (natOfDigits ds) (pt - ds.length) := by
  have num : ∀ w : Str, w ≠ [] → DigitsOnly w → Num w (natOfDigits w) := fun w h0 h => num_intro h0 ((digitsOnly_iff _).1 h)
  unfold reprDigits
  split
  · split
    · have hz := digitsOnly_append (digitsOnly_zeros (-pt).toNat) hd
      refine ⟨natOfDigits ds, 0 - (List.replicate (-pt).toNat '0' ++ ds).length, ⟨['0'], List.replicate (-pt).toNat '0' ++ ds, _, [], 0, ?_,
        digitsOnly_zero, hz, .inl rfl, .inl ⟨rfl, rfl⟩, ?_, rfl⟩, ?_⟩
      · simp
      · have := num (['0'] ++ (List.replicate (-pt).toNat '0' ++ ds)) (by simp) (digitsOnly_append digitsOnly_zero hz)
        rw [natOfDigits_app, natOfDigits_app, natOfDigits_zeros] at this
        simpa [natOfDigits, digVal] using this
      · rw [show (0 : Int) - (List.replicate (-pt).toNat '0' ++ ds).length = pt - ds.length by simp; omega]
        exact .refl _ _
    · split
      · rename_i h1 h2 h3
        have hz := digitsOnly_append hd (digitsOnly_zeros (pt.toNat - ds.length))
        refine ⟨natOfDigits ds * 10 ^ (pt.toNat - ds.length + 1), 0 - ['0'].length, ⟨ds ++ List.replicate (pt.toNat - ds.length) '0', ['0'], _, [], 0, ?_,
          hz, digitsOnly_zero, .inl rfl, .inl ⟨rfl, rfl⟩, ?_, rfl⟩, ?_⟩
        · simp
        · have := num (ds ++ List.replicate (pt.toNat - ds.length) '0' ++ ['0']) (by simp) (digitsOnly_append hz digitsOnly_zero)
          rw [natOfDigits_app, natOfDigits_app, natOfDigits_zeros] at this
          simpa [natOfDigits, digVal, Nat.pow_succ, Nat.mul_assoc] using this
        · exact .shift _ _ (by simp; omega)
      · rename_i h1 h2 h3
        have ht : DigitsOnly (ds.take pt.toNat) := fun c hc => hd c (List.mem_of_mem_take hc)
        have hr : DigitsOnly (ds.drop pt.toNat) := fun c hc => hd c (List.mem_of_mem_drop hc)
        refine ⟨natOfDigits ds, 0 - (ds.drop pt.toNat).length, ⟨ds.take pt.toNat, ds.drop pt.toNat, _, [], 0, ?_, ht, hr, .inl rfl,
          .inl ⟨rfl, rfl⟩, ?_, rfl⟩, ?_⟩
        · simp
        · rw [List.take_append_drop]
          exact num ds h0 hd
        · rw [show (0 : Int) - (ds.drop pt.toNat).length = pt - ds.length by simp; omega]
          exact .refl _ _
  · have hes : ∃ es n, (if (natStr (pt - 1).natAbs).length < 2 then '0' :: natStr (pt - 1).natAbs else natStr (pt - 1).natAbs) = es ∧
        Num es n ∧ n = (pt - 1).natAbs := by
      have hn := natStr_num (pt - 1).natAbs
      split
      · refine ⟨_, _, rfl, num ('0' :: natStr (pt - 1).natAbs) (by simp) ?_, ?_⟩
        · exact digitsOnly_append digitsOnly_zero ((digitsOnly_iff _).2 (natStr_digits _))
        · rw [show '0' :: natStr (pt - 1).natAbs = ['0'] ++ natStr (pt - 1).natAbs from rfl, natOfDigits_app, natOfDigits_natStr]
          simp [natOfDigits, digVal]
      · exact ⟨_, _, rfl, hn, rfl⟩
    obtain ⟨es, n, hes, hn, hv⟩ := hes
    simp only [hes]
    have hexp : ExpOf ('e' :: (if pt - 1 < 0 then '-' else '+') :: es) (pt - 1) := by
      refine .inr ⟨'e', [if pt - 1 < 0 then '-' else '+'], es, n, rfl, .inl rfl, hn, ?_⟩
      split
      · exact .inl ⟨rfl, by omega⟩
      · exact .inr ⟨.inr rfl, by omega⟩
    have ht : DigitsOnly (ds.take 1) := fun c hc => hd c (List.mem_of_mem_take hc)
    have hr : DigitsOnly (ds.drop 1) := fun c hc => hd c (List.mem_of_mem_drop hc)
    refine ⟨natOfDigits ds, (pt - 1) - (ds.drop 1).length, ⟨ds.take 1, ds.drop 1, if ds.length ≤ 1 then [] else '.' :: ds.drop 1, _, pt - 1, ?_, ht, hr, ?_,
      hexp, ?_, rfl⟩, ?_⟩
    · simp
    · split
      · rename_i hl
        exact .inr ⟨rfl, List.drop_eq_nil_of_le hl⟩
      · exact .inl rfl
    · rw [List.take_append_drop]
      exact num ds h0 hd
    · have : 0 < ds.length := List.length_pos_iff.2 h0
      rw [show pt - 1 - (ds.drop 1).length = pt - ds.length by simp; omega]
      exact .refl _ _

theorem dropZeros_spec (s : Str) : ∃ t, s = dropZeros s ++ List.replicate t '0' := by
  have h : ∀ r : Str, ∃ t, r = List.replicate t '0' ++ r.dropWhile (· = '0') := by
    intro r
    induction r with
    | nil => exact ⟨0, rfl⟩
    | cons c r ih =>
      by_cases hc : c = '0'
      · obtain ⟨t, ht⟩ := ih
        refine ⟨t + 1, ?_⟩
        subst hc
        simp only [List.replicate_succ, List.cons_append, decide_true, List.dropWhile_cons_of_pos]
        rw [← ht]
      · exact ⟨0, by simp [hc]⟩
  obtain ⟨t, ht⟩ := h s.reverse
  refine ⟨t, ?_⟩
  have := congrArg List.reverse ht
  simpa [dropZeros] using this

theorem unit1_dvd_tens : unit1 ∣ tens := by
  unfold unit1 tens
  generalize (1074 : Nat) = k
  exact ⟨5 ^ k, by rw [← Nat.mul_pow]⟩

theorem pick_cases {low up : Bool} {f r d c : Nat} (h : pick low up f r d = some c) : (low = true ∧ c = f) ∨ (up = true ∧ c = f + 1) := by
  unfold pick at h
  cases low <;> cases up <;> simp at h
  · exact .inr ⟨rfl, h.symm⟩
  · exact .inl ⟨rfl, h.symm⟩
  · simp only [true_and]
    subst h
    split
    · simp
    · split
      · simp
      · omega

theorem candidate_read {u t n j c : Nat} (h : candidate u t n j = some c) : readTen u t c j = n := by
  unfold candidate at h
  rcases pick_cases h with ⟨h1, h2⟩ | ⟨h1, h2⟩
  · rw [h2]; exact eq_of_beq h1
  · rw [h2]; exact eq_of_beq h1

theorem shortest_read {u t n : Nat} (hn : isDouble n = true) (ht : 0 < t) (hu : u ∣ t) (j : Nat) :
    readTen u t (shortest u t n j).1 (shortest u t n j).2 = n := by
  induction j with
  | zero =>
    have : n * t / u * 10 ^ 0 * u = n * t := by
      rw [Nat.pow_zero, Nat.mul_one, Nat.div_mul_cancel (Nat.dvd_trans hu (Nat.dvd_mul_left _ _))]
    rw [shortest, readTen, this, nearest_exact hn ht]
  | succ j ih =>
    rw [shortest]
    split
    · rename_i c h
      exact candidate_read h
    · exact ih

theorem ofDec_readTen (neg : Bool) (c j : Nat) (e : Int) (h : e = j - 1074) : Dbl.ofDec neg c e = Dbl.mk neg (readTen unit1 tens c j) := by
  rw [ofDec_eq neg c e j 1074 (by omega), readTen, Dbl.ofRatio]
  unfold tens
  generalize (1074 : Nat) = k
  rfl

theorem nearest_zero (q : Nat) : nearest 0 q = 0 := by
  rw [nearest_halfEven]
  simp [halfEven, binade]

theorem readTen_zero (u t j : Nat) : readTen u t 0 j = 0 := by
  rw [readTen, Nat.zero_mul, Nat.zero_mul, nearest_zero]

/-- The digits of `repr`. -/
theorem shortest_digits {u t n : Nat} (hn : isDouble n = true) (ht : 0 < t) (hu : u ∣ t) (h0 : n ≠ 0) (j : Nat) :
    ∃ z, natStr (shortest u t n j).1 = dropZeros (natStr (shortest u t n j).1) ++ List.replicate z '0' ∧
      dropZeros (natStr (shortest u t n j).1) ≠ [] ∧ DigitsOnly (dropZeros (natStr (shortest u t n j).1)) := by
  have hr := shortest_read hn ht hu j
  generalize shortest u t n j = x at hr
  obtain ⟨z, hz⟩ := dropZeros_spec (natStr x.1)
  refine ⟨z, hz, ?_, ?_⟩
  · intro e
    rw [e, List.nil_append] at hz
    have h1 : x.1 = 0 := by rw [← natOfDigits_natStr x.1, hz, natOfDigits_zeros]
    rw [h1, readTen_zero] at hr
    exact h0 hr.symm
  · intro c hc
    have : c ∈ natStr x.1 := by rw [hz]; exact List.mem_append_left _ hc
    exact isDig_iff.1 (natStr_digits _ c this)

/-- What `repr` writes stands for the shortest decimal. -/
theorem reprUnits_text {n : Nat} (hn : isDouble n = true) (h0 : n ≠ 0) :
    ∃ d e, DecText (reprUnits n) d e ∧ SameNumber d e (shortest unit1 tens n topTen).1 ((shortest unit1 tens n topTen).2 - 1074) := by
  unfold reprUnits
  rw [if_neg h0]
  obtain ⟨z, hz, h1, h2⟩ := shortest_digits hn tens_pos unit1_dvd_tens h0 topTen
  generalize shortest unit1 tens n topTen = x at *
  obtain ⟨c, j⟩ := x
  simp only at *
  obtain ⟨d, e, hdec, he⟩ := reprDigits_dec _ ((natStr c).length + j - 1074) h2 h1
  refine ⟨d, e, hdec, he.trans ?_⟩
  have hl := congrArg List.length hz
  have hv := congrArg natOfDigits hz
  rw [natOfDigits_app, natOfDigits_zeros, natOfDigits_natStr, Nat.add_zero, List.length_replicate] at hv
  rw [List.length_append, List.length_replicate] at hl
  have := (SameNumber.shift (natOfDigits (dropZeros (natStr c))) z (e := (j : Int) - 1074) rfl).symm
  rw [← hv] at this
  rwa [show ((natStr c).length : Int) + j - 1074 - (dropZeros (natStr c)).length = j - 1074 + z by omega]

theorem reprUnits_dec {n : Nat} (hn : isDouble n = true) : ∃ d e, DecText (reprUnits n) d e ∧ ∀ neg, Dbl.ofDec neg d e = Dbl.mk neg n := by
  by_cases h0 : n = 0
  · subst h0
    refine ⟨0, -1, (decParts_iff _ _ _).1 (by decide), fun neg => ?_⟩
    rw [ofDec_eq neg 0 (-1) 0 1 (by omega), Dbl.ofRatio, Nat.zero_mul, nearest_zero]
  · obtain ⟨d, e, hd, he⟩ := reprUnits_text hn h0
    refine ⟨d, e, hd, fun neg => ?_⟩
    rw [ofDec_same neg he, ofDec_readTen neg _ _ _ rfl, shortest_read hn tens_pos unit1_dvd_tens topTen]

/-- The characters of a number. -/
theorem dec_chars {s : Str} {d : Nat} {e : Int} (h : DecText s d e) : ∀ c ∈ s, isDig c = true ∨ c ∈ c!".eE+-" := by
  obtain ⟨whole, frac, point, ex, e0, rfl, hw, hf, hp, he, -, -⟩ := h
  rw [digitsOnly_iff] at hw hf
  intro c hc
  rcases List.mem_append.1 hc with hc | hc
  · exact .inl (hw c hc)
  rcases List.mem_append.1 hc with hc | hc
  · rcases hp with rfl | ⟨rfl, _⟩
    · rcases List.mem_cons.1 hc with rfl | hc
      · exact .inr (by decide)
      · exact .inl (hf c hc)
    · cases hc
  · rcases he with ⟨rfl, _⟩ | ⟨x, sign, ds, n, rfl, hx, hn, hs⟩
    · cases hc
    · rcases List.mem_cons.1 hc with rfl | hc
      · rcases hx with rfl | rfl <;> exact .inr (by decide)
      rcases List.mem_append.1 hc with hc | hc
      · rcases hs with ⟨rfl, _⟩ | ⟨rfl | rfl, _⟩
        · rw [List.mem_singleton.1 hc]; exact .inr (by decide)
        · cases hc
        · rw [List.mem_singleton.1 hc]; exact .inr (by decide)
      · exact .inl (isDig_iff.2 (hn.2.1 c hc))

theorem dec_head {s : Str} {d : Nat} {e : Int} (h : DecText s d e) : ∃ c r, s = c :: r ∧ (isDig c = true ∨ c = '.') := by
  obtain ⟨whole, frac, point, ex, e0, rfl, hw, hf, hp, he, hn, -⟩ := h
  cases whole with
  | cons c w => exact ⟨c, _, rfl, .inl (isDig_iff.2 (hw c (by simp)))⟩
  | nil =>
    rcases hp with rfl | ⟨rfl, rfl⟩
    · exact ⟨'.', _, rfl, .inr rfl⟩
    · exact absurd rfl hn.1

theorem dropUnderscores_none {s : Str} (h : '_' ∉ s) (prev : Option Char) (hp : prev ≠ some '_') : dropUnderscores prev s = some s := by
  induction s generalizing prev with
  | nil => simp [dropUnderscores, hp]
  | cons c s ih =>
    have hc : c ≠ '_' := fun e => h (by simp [e])
    rw [dropUnderscores, if_neg hc, if_neg (fun x => hp x.1), ih (fun hm => h (by simp [hm])) _ (by simpa using hc)]
    rfl

/-- `float` reads a number with or without a sign. -/
theorem pyFloat_dec {s b : Str} {neg : Bool} {d : Nat} {e : Int} (hs : SignOf s neg b) (h : DecText b d e) : pyFloat s = some (.ofDec neg d e) := by
  have hch : ∀ c ∈ s, isDig c = true ∨ c ∈ c!".eE+-" := by
    rcases hs with ⟨rfl, _⟩ | ⟨rfl | rfl, _⟩
    · intro c hc
      rcases List.mem_cons.1 hc with rfl | hc
      · exact .inr (by decide)
      · exact dec_chars h c hc
    · exact dec_chars h
    · intro c hc
      rcases List.mem_cons.1 hc with rfl | hc
      · exact .inr (by decide)
      · exact dec_chars h c hc
  have hsp : ∀ c ∈ s, isIntSpace c = false := by
    intro c hc
    rcases hch c hc with h | h
    · exact isIntSpace_of_isDig h
    · have : ∀ c ∈ c!".eE+-", isIntSpace c = false := by decide
      exact this c h
  have hun : '_' ∉ s := by
    intro hc
    rcases hch _ hc with h | h
    · exact absurd h (by decide)
    · exact absurd h (by decide)
  obtain ⟨c, r, rfl, hc⟩ := dec_head h
  have hsign : cutSign s = (neg, c :: r) := by
    refine cutSign_complete hs ?_
    intro x hx
    simp at hx
    subst hx
    rcases hc with hc | rfl
    · exact dig_not_sign hc
    · decide
  have hlow : c.toLower ≠ 'i' ∧ c.toLower ≠ 'n' := by
    rcases hc with hc | rfl
    · have h1 : ∀ n, 48 ≤ n → n ≤ 57 → (Char.ofNat n).toLower ≠ 'i' ∧ (Char.ofNat n).toLower ≠ 'n' := by
        intro n h1 h2
        have : ∀ k, k < 10 → (Char.ofNat (48 + k)).toLower ≠ 'i' ∧ (Char.ofNat (48 + k)).toLower ≠ 'n' := by decide
        have := this (n - 48) (by omega)
        rwa [show 48 + (n - 48) = n by omega] at this
      have h2 := isDig_toNat.1 hc
      have := h1 c.toNat h2.1 h2.2
      rwa [Char.ofNat_toNat] at this
    · decide
  rw [pyFloat, stripBy_self hsp, dropUnderscores_none hun none (by simp), Option.bind_some, floatBody]
  simp only [hsign, List.map_cons]
  rw [if_neg, if_neg, (decParts_iff _ _ _).2 h]
  · rfl
  · intro h; exact hlow.2 (List.cons.inj h).1
  · rintro (h | h)
    · exact hlow.1 (List.cons.inj h).1
    · exact hlow.1 (List.cons.inj h).1

/-- `float(repr(x))` is `x`. -/
theorem pyFloat_repr (x : Dbl) : pyFloat x.repr = some x := by
  cases x with
  | nan => decide
  | inf neg => cases neg <;> decide
  | fin neg n ok =>
    obtain ⟨d, e, hd, he⟩ := reprUnits_dec ok
    rw [Dbl.repr, pyFloat_dec (neg := neg) (b := reprUnits n) ?_ hd, he neg, Dbl.mk_of ok]
    cases neg
    · exact .inr ⟨.inl rfl, rfl⟩
    · exact .inl ⟨rfl, rfl⟩

end Jq
