import Verif.Spec.Options
/-! Lemmas for C76–C78: the text of a time of day, and the conversions. -/
namespace Jq

theorem mbind_head {α β : Type} {m : Str → Matches α} {f : α → Str → Matches β} {s r : Str} {x : α} {y : β × Str}
    (h : (m s).head? = some (x, r)) (h' : (f x r).head? = some y) : (mbind m f s).head? = some y := by
  cases hm : m s with
  | nil => simp [hm] at h
  | cons a l =>
    rw [hm] at h
    simp only [List.head?_cons, Option.some.injEq] at h
    subst h
    simp only [mbind, hm, List.flatMap_cons]
    cases hf : f x r with
    | nil => simp [hf] at h'
    | cons b k => simpa [hf] using h'

theorem mbind_mem {α β : Type} {m : Str → Matches α} {f : α → Str → Matches β} {s : Str} {y : β × Str}
    (h : y ∈ mbind m f s) : ∃ x r, (x, r) ∈ m s ∧ y ∈ f x r := by
  obtain ⟨⟨x, r⟩, h1, h2⟩ := List.mem_flatMap.1 h
  exact ⟨x, r, h1, h2⟩

theorem fLit_mem {c : Char} {s r : Str} {u : Unit} (h : (u, r) ∈ fLit c s) : s = c :: r := by
  cases s with
  | nil => simp [fLit] at h
  | cons a t =>
    simp only [fLit] at h
    split at h
    · rename_i e; simp at h; rw [e, h]
    · simp at h

theorem fLit_head (c : Char) (r : Str) : (fLit c (c :: r)).head? = some ((), r) := by simp [fLit]

theorem isDig_iff {c : Char} : isDig c = true ↔ '0' ≤ c ∧ c ≤ '9' := by
  simp [isDig]

theorem char_le {a b : Char} : a ≤ b ↔ a.toNat ≤ b.toNat := by
  simp only [Char.le_def, Char.toNat, UInt32.le_iff_toNat_le]

theorem char_eq {a b : Char} : a = b ↔ a.toNat = b.toNat := by
  constructor
  · rintro rfl; rfl
  · intro h; exact Char.ext (UInt32.toNat_inj.1 h)

theorem digVal_eq (c : Char) : digVal c = c.toNat - '0'.toNat := rfl

theorem inR_iff {lo hi c : Char} : inR lo hi c = true ↔ lo.toNat ≤ c.toNat ∧ c.toNat ≤ hi.toNat := by
  simp [inR, char_le]

theorem isDig_nat {c : Char} : isDig c = true ↔ 48 ≤ c.toNat ∧ c.toNat ≤ 57 := by
  rw [isDig_iff, char_le, char_le]; exact Iff.rfl

theorem dig_range {c : Char} : ('0' ≤ c ∧ c ≤ '9') ↔ 48 ≤ c.toNat ∧ c.toNat ≤ 57 := by
  rw [char_le, char_le]; exact Iff.rfl

theorem twoAlt_mem {p q : Char → Bool} {s r : Str} {n : Nat} (h : (n, r) ∈ twoAlt p q s) :
    ∃ a b, s = a :: b :: r ∧ p a = true ∧ q b = true ∧ n = 10 * (a.toNat - 48) + (b.toNat - 48) := by
  match s, h with
  | a :: b :: t, h =>
    simp only [twoAlt] at h
    split at h
    · rename_i e
      simp only [Bool.and_eq_true] at e
      simp only [List.mem_singleton, Prod.mk.injEq] at h
      exact ⟨a, b, by rw [h.2], e.1, e.2, h.1⟩
    · simp at h
  | [a], h => simp [twoAlt] at h
  | [], h => simp [twoAlt] at h

theorem oneAlt_mem {p : Char → Bool} {s r : Str} {n : Nat} (h : (n, r) ∈ oneAlt p s) :
    ∃ a, s = a :: r ∧ p a = true ∧ n = a.toNat - 48 := by
  match s, h with
  | a :: t, h =>
    simp only [oneAlt] at h
    split at h
    · rename_i e
      simp only [List.mem_singleton, Prod.mk.injEq] at h
      exact ⟨a, by rw [h.2], e, h.1⟩
    · simp at h
  | [], h => simp [oneAlt] at h

theorem field_two {a b : Char} {lim : Nat} (ha : 48 ≤ a.toNat ∧ a.toNat ≤ 57) (hb : 48 ≤ b.toNat ∧ b.toNat ≤ 57)
    (h : 10 * (a.toNat - 48) + (b.toNat - 48) < lim) : ClockField [a, b] lim (10 * (a.toNat - 48) + (b.toNat - 48)) := by
  refine ⟨Or.inr rfl, ?_, ?_, h⟩
  · intro c hc
    rw [dig_range]
    simp only [List.mem_cons, List.not_mem_nil, or_false] at hc
    rcases hc with rfl | rfl
    · exact ha
    · exact hb
  · simp [decimal, show '0'.toNat = 48 from rfl]

theorem field_one {a : Char} {lim : Nat} (ha : 48 ≤ a.toNat ∧ a.toNat ≤ 57) (h : a.toNat - 48 < lim) :
    ClockField [a] lim (a.toNat - 48) := by
  refine ⟨Or.inl rfl, ?_, ?_, h⟩
  · intro c hc
    rw [dig_range]
    simp only [List.mem_cons, List.not_mem_nil, or_false] at hc
    subst hc; exact ha
  · simp [decimal, show '0'.toNat = 48 from rfl]

theorem field_cases {w : Str} {lim n : Nat} (h : ClockField w lim n) :
    (∃ a, w = [a] ∧ (48 ≤ a.toNat ∧ a.toNat ≤ 57) ∧ n = a.toNat - 48 ∧ n < lim) ∨
    (∃ a b, w = [a, b] ∧ (48 ≤ a.toNat ∧ a.toNat ≤ 57) ∧ (48 ≤ b.toNat ∧ b.toNat ≤ 57) ∧
      n = 10 * (a.toNat - 48) + (b.toNat - 48) ∧ n < lim) := by
  obtain ⟨hl, hd, hv, hlt⟩ := h
  match w, hl with
  | [a], _ =>
    refine Or.inl ⟨a, rfl, dig_range.1 (hd a (by simp)), ?_, hlt⟩
    rw [← hv]; simp [decimal, show '0'.toNat = 48 from rfl]
  | [a, b], _ =>
    refine Or.inr ⟨a, b, rfl, dig_range.1 (hd a (by simp)), dig_range.1 (hd b (by simp)), ?_, hlt⟩
    rw [← hv]; simp [decimal, show '0'.toNat = 48 from rfl]
  | [], h => simp at h
  | _ :: _ :: _ :: _, h => simp at h

theorem fHour_mem {s r : Str} {n : Nat} (h : (n, r) ∈ fHour s) : ∃ w, s = w ++ r ∧ ClockField w 24 n := by
  simp only [fHour, List.mem_append] at h
  rcases h with (h | h) | h
  · obtain ⟨a, b, rfl, ha, hb, rfl⟩ := twoAlt_mem h
    have ha : a.toNat = 50 := by have := of_decide_eq_true ha; subst this; rfl
    have hb : 48 ≤ b.toNat ∧ b.toNat ≤ 51 := inR_iff.1 hb
    exact ⟨[a, b], rfl, field_two (by omega) (by omega) (by omega)⟩
  · obtain ⟨a, b, rfl, ha, hb, rfl⟩ := twoAlt_mem h
    have ha : 48 ≤ a.toNat ∧ a.toNat ≤ 49 := inR_iff.1 ha
    have hb := isDig_nat.1 hb
    exact ⟨[a, b], rfl, field_two (by omega) (by omega) (by omega)⟩
  · obtain ⟨a, rfl, ha, rfl⟩ := oneAlt_mem h
    have ha := isDig_nat.1 ha
    exact ⟨[a], rfl, field_one (by omega) (by omega)⟩

theorem fMinute_mem {s r : Str} {n : Nat} (h : (n, r) ∈ fMinute s) : ∃ w, s = w ++ r ∧ ClockField w 60 n := by
  simp only [fMinute, List.mem_append] at h
  rcases h with h | h
  · obtain ⟨a, b, rfl, ha, hb, rfl⟩ := twoAlt_mem h
    have ha : 48 ≤ a.toNat ∧ a.toNat ≤ 53 := inR_iff.1 ha
    have hb := isDig_nat.1 hb
    exact ⟨[a, b], rfl, field_two (by omega) (by omega) (by omega)⟩
  · obtain ⟨a, rfl, ha, rfl⟩ := oneAlt_mem h
    have ha := isDig_nat.1 ha
    exact ⟨[a], rfl, field_one (by omega) (by omega)⟩

theorem fSecond_mem {s r : Str} {n : Nat} (h : (n, r) ∈ fSecond s) : ∃ w, s = w ++ r ∧ ClockField w 62 n := by
  simp only [fSecond, List.mem_append] at h
  rcases h with (h | h) | h
  · obtain ⟨a, b, rfl, ha, hb, rfl⟩ := twoAlt_mem h
    have ha : a.toNat = 54 := by have := of_decide_eq_true ha; subst this; rfl
    have hb : 48 ≤ b.toNat ∧ b.toNat ≤ 49 := inR_iff.1 hb
    exact ⟨[a, b], rfl, field_two (by omega) (by omega) (by omega)⟩
  · obtain ⟨a, b, rfl, ha, hb, rfl⟩ := twoAlt_mem h
    have ha : 48 ≤ a.toNat ∧ a.toNat ≤ 53 := inR_iff.1 ha
    have hb := isDig_nat.1 hb
    exact ⟨[a, b], rfl, field_two (by omega) (by omega) (by omega)⟩
  · obtain ⟨a, rfl, ha, rfl⟩ := oneAlt_mem h
    have ha := isDig_nat.1 ha
    exact ⟨[a], rfl, field_one (by omega) (by omega)⟩

/-- The rest of the text does not begin with a digit. -/
def NoDigit (r : Str) : Prop := ∀ c t, r = c :: t → ¬ (48 ≤ c.toNat ∧ c.toNat ≤ 57)

theorem noDigit_nil : NoDigit [] := by intro c t h; cases h

theorem noDigit_colon (r : Str) : NoDigit (':' :: r) := by
  intro c t h; cases h; decide

theorem twoAlt_one {p q : Char → Bool} {a : Char} {r : Str} (hq : ∀ c, q c = true → 48 ≤ c.toNat ∧ c.toNat ≤ 57) (hr : NoDigit r) :
    twoAlt p q (a :: r) = [] := by
  cases r with
  | nil => rfl
  | cons c t =>
    have : q c ≠ true := fun h => hr c t rfl (hq c h)
    simp [twoAlt, this]

theorem twoAlt_yes {p q : Char → Bool} {a b : Char} {r : Str} (ha : p a = true) (hb : q b = true) :
    twoAlt p q (a :: b :: r) = [(10 * (a.toNat - 48) + (b.toNat - 48), r)] := by
  simp [twoAlt, ha, hb, digVal, show '0'.toNat = 48 from rfl]

theorem twoAlt_no {p q : Char → Bool} {a b : Char} {r : Str} (h : ¬ (p a = true ∧ q b = true)) :
    twoAlt p q (a :: b :: r) = [] := by
  simp only [twoAlt, Bool.and_eq_true, h, if_false]

theorem oneAlt_yes {p : Char → Bool} {a : Char} {r : Str} (ha : p a = true) : oneAlt p (a :: r) = [(a.toNat - 48, r)] := by
  simp [oneAlt, ha, digVal, show '0'.toNat = 48 from rfl]

theorem isDig_range (c : Char) (h : isDig c = true) : 48 ≤ c.toNat ∧ c.toNat ≤ 57 := isDig_nat.1 h

theorem inR_range {lo hi : Char} (h1 : 48 ≤ lo.toNat) (h2 : hi.toNat ≤ 57) (c : Char) (h : inR lo hi c = true) :
    48 ≤ c.toNat ∧ c.toNat ≤ 57 := by have := inR_iff.1 h; omega

theorem fHour_head {w r : Str} {n : Nat} (h : ClockField w 24 n) (hr : NoDigit r) : (fHour (w ++ r)).head? = some (n, r) := by
  rcases field_cases h with ⟨a, rfl, ha, rfl, hn⟩ | ⟨a, b, rfl, ha, hb, rfl, hn⟩
  · simp only [fHour, List.cons_append, List.nil_append]
    rw [twoAlt_one (inR_range (by decide) (by decide)) hr, twoAlt_one isDig_range hr, oneAlt_yes (isDig_nat.2 ha)]
    rfl
  · simp only [fHour, List.cons_append, List.nil_append]
    by_cases h2 : a.toNat = 50
    · have e2 : (a == '2') = true := by rw [show a = '2' from char_eq.2 h2]; rfl
      have e3 : inR '0' '3' b = true := inR_iff.2 ⟨hb.1, show b.toNat ≤ 51 by omega⟩
      rw [twoAlt_yes (p := (· == '2')) e2 e3]
      rfl
    · rw [twoAlt_no (fun h => h2 (by have := of_decide_eq_true h.1; subst this; rfl)),
        twoAlt_yes (p := inR '0' '1') (inR_iff.2 ⟨ha.1, show a.toNat ≤ 49 by omega⟩) (isDig_nat.2 hb)]
      rfl

theorem fMinute_head {w r : Str} {n : Nat} (h : ClockField w 60 n) (hr : NoDigit r) : (fMinute (w ++ r)).head? = some (n, r) := by
  rcases field_cases h with ⟨a, rfl, ha, rfl, hn⟩ | ⟨a, b, rfl, ha, hb, rfl, hn⟩
  · simp only [fMinute, List.cons_append, List.nil_append]
    rw [twoAlt_one isDig_range hr, oneAlt_yes (isDig_nat.2 ha)]
    rfl
  · simp only [fMinute, List.cons_append, List.nil_append]
    rw [twoAlt_yes (p := inR '0' '5') (inR_iff.2 ⟨ha.1, show a.toNat ≤ 53 by omega⟩) (isDig_nat.2 hb)]
    rfl

theorem fSecond_head {w r : Str} {n : Nat} (h : ClockField w 60 n) (hr : NoDigit r) : (fSecond (w ++ r)).head? = some (n, r) := by
  rcases field_cases h with ⟨a, rfl, ha, rfl, hn⟩ | ⟨a, b, rfl, ha, hb, rfl, hn⟩
  · simp only [fSecond, List.cons_append, List.nil_append]
    rw [twoAlt_one (inR_range (by decide) (by decide)) hr, twoAlt_one isDig_range hr, oneAlt_yes (isDig_nat.2 ha)]
    rfl
  · simp only [fSecond, List.cons_append, List.nil_append]
    rw [twoAlt_no (fun h => by have := of_decide_eq_true h.1; subst this; simp [show '6'.toNat = 54 from rfl] at hn; omega),
      twoAlt_yes (p := inR '0' '5') (inR_iff.2 ⟨ha.1, show a.toNat ≤ 53 by omega⟩) (isDig_nat.2 hb)]
    rfl

theorem ClockField.lower {w : Str} {lim lim' n : Nat} (h : ClockField w lim n) (hn : n < lim') : ClockField w lim' n :=
  ⟨h.1, h.2.1, h.2.2.1, hn⟩

/-- The text of a time of day. -/
theorem clockText_iff (s : Str) (t : Int) : clockText s = .ok t ↔ GivenTime (.text s) t := by
  constructor
  · intro h
    simp only [clockText] at h
    split at h
    · rename_i nh nm ns hm
      split at h
      · rename_i hlt
        injection h with ht
        have hmem := List.mem_of_head? hm
        obtain ⟨_, r1, h1, h⟩ := mbind_mem hmem
        obtain ⟨_, r2, h2, h⟩ := mbind_mem h
        obtain ⟨_, r3, h3, h⟩ := mbind_mem h
        obtain ⟨_, r4, h4, h⟩ := mbind_mem h
        obtain ⟨_, r5, h5, h⟩ := mbind_mem h
        simp only [List.mem_singleton, Prod.mk.injEq] at h
        obtain ⟨⟨rfl, rfl, rfl⟩, rfl⟩ := h
        obtain ⟨w1, rfl, f1⟩ := fHour_mem h1
        have e2 := fLit_mem h2
        obtain ⟨w3, rfl, f3⟩ := fMinute_mem h3
        have e4 := fLit_mem h4
        obtain ⟨w5, rfl, f5⟩ := fSecond_mem h5
        subst e2 e4
        rw [← ht]
        have := GivenTime.text w1 w3 w5 _ _ _ f1 f3 (f5.lower hlt)
        simpa using this
      · cases h
    · cases h
  · intro h
    cases h with
    | text h m s nh nm ns hh hm hs =>
      have key : (mClock (h ++ ':' :: m ++ ':' :: s)).head? = some ((nh, nm, ns), []) := by
        have e : h ++ ':' :: m ++ ':' :: s = h ++ (':' :: (m ++ (':' :: (s ++ [])))) := by simp
        rw [e]
        refine mbind_head (fHour_head hh (noDigit_colon _)) ?_
        refine mbind_head (fLit_head _ _) ?_
        refine mbind_head (fMinute_head hm (noDigit_colon _)) ?_
        refine mbind_head (fLit_head _ _) ?_
        exact mbind_head (fSecond_head hs noDigit_nil) rfl
      simp only [clockText, key, hs.2.2.2, if_true]

/-! ## Conversions -/

theorem parseTime_iff (v : TimeVal) (t : Int) : parseTime v = .ok t ↔ GivenTime v t := by
  cases v with
  | time u =>
    simp only [parseTime, Except.ok.injEq]
    constructor
    · rintro rfl; exact .time _
    · intro h; cases h; rfl
  | text s => exact clockText_iff s t
  | other =>
    constructor
    · intro h; cases h
    · intro h; cases h

theorem convPair_iff (p : PairVal) (q : Int × Int) : convPair p = .ok q ↔ GivenPeriod p q := by
  constructor
  · intro h
    match p, h with
    | .seq [a, b], h =>
      simp only [convPair] at h
      split at h
      · cases h
      · rename_i x hx
        split at h
        · cases h
        · rename_i y hy
          injection h with h; subst h
          exact .mk ((parseTime_iff a x).1 hx) ((parseTime_iff b y).1 hy)
    | .seq [], h => cases h
    | .seq [_], h => cases h
    | .seq (_ :: _ :: _ :: _), h => cases h
    | .text _, h => cases h
    | .other, h => cases h
  · rintro ⟨ha, hb⟩
    simp only [convPair, (parseTime_iff _ _).2 ha, (parseTime_iff _ _).2 hb]

theorem convPairs_iff (ps : List PairVal) : ∀ qs : Periods, convPairs ps = .ok qs ↔ GivenPeriods ps qs := by
  induction ps with
  | nil =>
    intro qs
    simp only [convPairs, Except.ok.injEq]
    constructor
    · rintro rfl; exact .nil
    · intro h; cases h; rfl
  | cons p ps ih =>
    intro qs
    simp only [convPairs]
    constructor
    · intro h
      split at h
      · cases h
      · rename_i q hq
        split at h
        · cases h
        · rename_i rs hrs
          injection h with h; subst h
          exact .cons ((convPair_iff _ _).1 hq) ((ih _).1 hrs)
    · intro h
      cases h with
      | cons hp hps => simp only [(convPair_iff _ _).2 hp, (ih _).2 hps]

theorem convert_iff (v v' : PerVal) : v.convert = .ok v' ↔ KeptPeriods v v' := by
  cases v with
  | falsy =>
    simp only [PerVal.convert, Except.ok.injEq]
    constructor
    · rintro rfl; exact .falsy
    · intro h; cases h; rfl
  | scalar =>
    constructor
    · intro h; cases h
    · intro h; cases h
  | seq ps =>
    have e : (PerVal.seq ps).convert = (convPairs ps).map PerVal.ofPeriods := by
      cases ps with
      | nil => rfl
      | cons p ps => rfl
    rw [e]
    constructor
    · intro h
      cases hc : convPairs ps with
      | error x => rw [hc] at h; cases h
      | ok qs =>
        rw [hc] at h
        injection h with h; subst h
        exact .seq ((convPairs_iff _ _).1 hc)
    · intro h
      cases h with
      | seq h => rw [(convPairs_iff _ _).2 h]; rfl

theorem convOpt_iff (v v' : Option PerVal) : convOpt v = .ok v' ↔ KeptOption v v' := by
  cases v with
  | none =>
    simp only [convOpt, Except.ok.injEq]
    constructor
    · rintro rfl; exact .none
    · intro h; cases h; rfl
  | some w =>
    simp only [convOpt]
    constructor
    · intro h
      cases hc : w.convert with
      | error x => rw [hc] at h; cases h
      | ok w' =>
        rw [hc] at h
        injection h with h; subst h
        exact .some ((convert_iff _ _).1 hc)
    · intro h
      cases h with
      | some h => rw [(convert_iff _ _).2 h]; rfl

theorem parse_iff (o o' : Opts) : o.parse = .ok o' ↔ KeptOptions o o' := by
  constructor
  · intro h
    have hk := Opts.parse_keeps h
    simp only [Opts.parse] at h
    split at h
    · cases h
    · rename_i mp hmp
      split at h
      · cases h
      · rename_i hi
        split at h
        · cases h
        · rename_i sp hsp
          injection h with h
          refine ⟨?_, ?_, fun e he => hi e he, hk⟩
          · rw [← h]; exact (convOpt_iff _ _).1 hmp
          · rw [← h]; exact (convOpt_iff _ _).1 hsp
  · rintro ⟨hm, hp, hi, h1, h2, h3, h4, h5⟩
    simp only [Opts.parse, (convOpt_iff _ _).2 hm, (convOpt_iff _ _).2 hp]
    congr 1
    cases o; cases o'; simp_all

theorem understood_iff (o : Opts) : Understood o ↔ o.parse.isOk = true := by
  constructor
  · rintro ⟨o', h⟩
    rw [(parse_iff _ _).2 h]; rfl
  · intro h
    cases hp : o.parse with
    | error e => rw [hp] at h; cases h
    | ok o' => exact ⟨o', (parse_iff _ _).1 hp⟩

/-! ## Errors of the conversions -/

theorem clockText_error {s : Str} {e : PyErr} (h : clockText s = .error e) : e = .valueError := by
  simp only [clockText] at h
  split at h
  · split at h
    · cases h
    · injection h with h; exact h.symm
  · injection h with h; exact h.symm

theorem parseTime_error {v : TimeVal} {e : PyErr} (h : parseTime v = .error e) : e = .valueError := by
  cases v with
  | time t => cases h
  | text s => exact clockText_error h
  | other => injection h with h; exact h.symm

theorem convPair_error {p : PairVal} {e : PyErr} (h : convPair p = .error e) : e = .valueError ∨ e = .typeError := by
  match p, h with
  | .seq [a, b], h =>
    simp only [convPair] at h
    split at h
    · rename_i x hx; injection h with h; subst h; exact Or.inl (parseTime_error hx)
    · split at h
      · rename_i y hy; injection h with h; subst h; exact Or.inl (parseTime_error hy)
      · cases h
  | .seq [], h => injection h with h; exact Or.inl h.symm
  | .seq [_], h => injection h with h; exact Or.inl h.symm
  | .seq (_ :: _ :: _ :: _), h => injection h with h; exact Or.inl h.symm
  | .text _, h => injection h with h; exact Or.inl h.symm
  | .other, h => injection h with h; exact Or.inr h.symm

theorem convPairs_error {ps : List PairVal} {e : PyErr} (h : convPairs ps = .error e) : e = .valueError ∨ e = .typeError := by
  induction ps with
  | nil => cases h
  | cons p ps ih =>
    simp only [convPairs] at h
    split at h
    · rename_i x hx; injection h with h; subst h; exact convPair_error hx
    · split at h
      · rename_i x hx; injection h with h; subst h; exact ih hx
      · cases h

theorem convOpt_error {v : Option PerVal} {e : PyErr} (h : convOpt v = .error e) : e = .valueError ∨ e = .typeError := by
  match v, h with
  | some .scalar, h => injection h with h; exact Or.inr h.symm
  | some (.seq (p :: ps)), h =>
    simp only [convOpt, PerVal.convert] at h
    cases hc : convPairs (p :: ps) with
    | error x => rw [hc] at h; injection h with h; subst h; exact convPairs_error hc
    | ok qs => rw [hc] at h; cases h
  | some .falsy, h => cases h
  | some (.seq []), h => cases h
  | none, h => cases h

end Jq
