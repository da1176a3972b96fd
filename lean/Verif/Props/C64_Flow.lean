import Verif.Lemmas.FlowInv
import Verif.Props.C17_Api
set_option linter.unusedSectionVars false
/-!
# C64: from the orders asked for and the broker's files to what the user sees

The whole chain: `order` (`account.py:161-175`), the built-in gate's record and order book (`trade_gate.py:238-302`), the broker's
two files, reading them (`trade_gate.py:392-491`), merging the report into the account (`account.py:229-254`), `get_orders`; with
write and save failures anywhere, and with the process killed at any file operation and started again, any number of times.
-/
namespace Jq
variable {ν : Type} [CellNum ν] [Store ν] [LawfulStore ν]

theorem frun_inv {D : Str} {conf : AXConf} {fs : Files} {env : Nat → Env} {R U : Nat → Option Str} {n : Nat} {used : List Str} (hB : Broker D env R U)
    (hwin : conf.win = false) (hign : conf.ignoreErr = true) (h0 : fs (.data conf.dataDay) = none) {asked : List (Ack ν)} {t : PState ν}
    (h : FRun R U ⟨Acct.init ⟨AX.setup conf fs, env, n⟩, [], used⟩ asked t) : FInv conf env R U asked t := by
  induction h with
  | refl => exact finv_start h0
  | step op _ hs hnew ih => exact finv_step hB hwin hign op ih hs hnew

/-- The orders of the account are orders that were asked for on this day: nothing is invented, mixed up or left over. -/
theorem c64_only_what_was_asked (D : Str) (conf : AXConf) (fs : Files) (env : Nat → Env) (R U : Nat → Option Str) (n : Nat) (used : List Str)
    (hB : Broker D env R U) (hwin : conf.win = false) (hign : conf.ignoreErr = true) (h0 : fs (.data conf.dataDay) = none)
    (asked : List (Ack ν)) (t : PState ν) (h : FRun R U ⟨Acct.init ⟨AX.setup conf fs, env, n⟩, [], used⟩ asked t) (id : Str) (o : Order ν)
    (ho : t.acct.find id = some o) : ∃ k ∈ asked, k.id = id ∧ o.AsAsked k :=
  (frun_inv hB hwin hign h0 h).acct id o ho

private theorem saysLine_shows {o : Order ν} {i : OrderInfo ν} {ln : OrderLine} (h : o.ShowsReport i) (hs : i.SaysLine ln) : o.ShowsLine ln := by
  obtain ⟨h1, h2, h3, h4, h5, h6, _, h8⟩ := h
  obtain ⟨⟨st, g1, g2⟩, _, g3, ⟨n, g4, g5⟩, ⟨x, g6, g7⟩, ⟨m, g8, g9⟩, ⟨y, g10, g11⟩, _⟩ := hs
  refine ⟨⟨st, g1, ?_⟩, by rw [h3, g3], by rw [h4, g5]; exact g4, by rw [h5, g9]; exact g8, ⟨x, g6, ?_⟩, ?_⟩
  · rcases h2 with ⟨_, e | e⟩ | ⟨s, e1, e2⟩
    · rw [e] at g2; cases g2
    · rw [e] at g2; injection g2 with g2; cases st <;> cases g2
    · rw [e2] at g2
      injection g2 with g2
      rw [e1]
      cases s <;> cases st <;> first | rfl | (exact absurd g2 (by decide))
  · rw [g7] at h6; exact h6
  · rcases h8 with ⟨_, e⟩ | ⟨a, b, e1, e2, e3⟩
    · rw [e] at g11; cases g11
    · rw [e2] at g11
      injection g11 with g11
      exact ⟨y, a, g10, e1, g11 ▸ e3⟩

private theorem shows_status {o : Order ν} {i : OrderInfo ν} (h : o.ShowsReport i) {st : Status} (hs : i.status = some st.name) : o.status = some st := by
  rcases h.hStatus with ⟨_, e | e⟩ | ⟨s, e1, e2⟩
  · rw [e] at hs; cases hs
  · rw [e] at hs; injection hs with hs; cases st <;> cases hs
  · rw [e2] at hs
    injection hs with hs
    rw [e1]
    cases s <;> cases st <;> first | rfl | (exact absurd hs (by decide))

/-- After a synchronisation in which the gate succeeded, every order whose id was returned is in the account, is what was asked for,
and shows what the broker's files say about it. -/
theorem c64_accepted_orders_shown (D : Str) (conf : AXConf) (fs : Files) (env : Nat → Env) (R U : Nat → Option Str) (n : Nat) (used : List Str)
    (hB : Broker D env R U) (hwin : conf.win = false) (hign : conf.ignoreErr = true) (h0 : fs (.data conf.dataDay) = none)
    (asked : List (Ack ν)) (t : PState ν) (h : FRun R U ⟨Acct.init ⟨AX.setup conf fs, env, n⟩, [], used⟩ asked t)
    (g : AXG ν) (infos : List (OrderInfo ν)) (hG : (axGate ν).orders t.acct.gate = (g, .ok infos)) (k : Ack ν) (hk : k ∈ t.acks) :
    ∃ o, (t.acct.syncOrders (axGate ν)).1.find k.id = some o ∧ o.AsAsked k ∧
      o.ShowsFiles ((R t.acct.gate.n).getD []) ((U t.acct.gate.n).getD []) := by
  have hi := frun_inv hB hwin hign h0 h
  have hi' : FInv conf env R U (asked ++ (AOp.syncOrders : AOp ν).asks) ⟨(t.acct.step (axGate ν) .syncOrders).1,
      t.acks ++ (AOp.syncOrders : AOp ν).acks (t.acct.step (axGate ν) .syncOrders).2, t.used ++ (AOp.syncOrders : AOp ν).draws⟩ :=
    finv_step hB hwin hign .syncOrders hi (.op t (by simp [AOp.draws])) (by simp [AOp.asks])
  have hcur : t.acct.gate.cur = env t.acct.gate.n := by rw [AXG.cur, hi.henv]
  have hrd : ∀ f, t.acct.gate.ready.files f = (env t.acct.gate.n).ext t.acct.gate.ax.files f := fun f => by rw [AXG.ready, hcur]
  have hrconf : t.acct.gate.ready.conf = conf := hi.hconf
  have hday : t.acct.gate.cur.day = D := by rw [hcur, hB.day]
  have hru : t.acct.gate.ready.files (.updates D) = U t.acct.gate.n := by rw [hrd, hB.updates]
  have hrr : t.acct.gate.ready.files (.results D) = R t.acct.gate.n := by rw [hrd, hB.results]
  have hwr := hB.wholeR t.acct.gate.n
  have hwu := hB.wholeU t.acct.gate.n
  have hgr := hB.goodR t.acct.gate.n
  have hgu := hB.goodU t.acct.gate.n
  have hone := hB.one t.acct.gate.n
  have htimes := hB.times t.acct.gate.n
  -- the report
  obtain ⟨b, hb1, hb2⟩ : ∃ b, infos = dvalues b ∧
      b = (pollBoth true ((R t.acct.gate.n).getD []) ((U t.acct.gate.n).getD []) ⟨t.acct.gate.ax.book, t.acct.gate.ax.resOff, t.acct.gate.ax.updOff⟩).1.book := by
    have h2 : (t.acct.gate.ready.syncOrders t.acct.gate.cur).2 = .ok infos := congrArg Prod.snd hG
    simp only [AX.syncOrders, hday, hru, hrr, hrconf, hign] at h2
    cases hu : U t.acct.gate.n with
    | none => rw [hu] at h2; cases h2
    | some u =>
      cases hr : R t.acct.gate.n with
      | none => rw [hu, hr] at h2; cases h2
      | some rr =>
        rw [hu, hr] at h2
        simp only at h2
        cases hp : pollBoth true rr u ⟨t.acct.gate.ready.book, t.acct.gate.ready.resOff, t.acct.gate.ready.updOff⟩ with
        | mk p v =>
          rw [hp] at h2
          cases v with
          | error e => cases h2
          | ok _ =>
            simp only at h2
            split at h2
            · cases h2
            · injection h2 with h2
              exact ⟨p.book, h2.symm, (congrArg (·.1.book) hp).symm⟩
  have hbok : DictOk b := by rw [hb2, DictOk, poll_keys]; exact hi.ok
  have hbook : BookOk asked ((R t.acct.gate.n).getD []) ((U t.acct.gate.n).getD []) b := by
    rw [hb2]; exact BookOk.poll (s := ⟨_, _, _⟩) hi.book hwr hwu hi.res hi.upd hone htimes
  have hall : ∀ p ∈ b, ∃ k ∈ asked, k.id = p.1 ∧ Good k p.2 := by
    rintro ⟨id, i⟩ hm
    obtain ⟨k, g1, g2, g3, _⟩ := hbook id i (dget_of_mem hbok hm)
    exact ⟨k, g1, g2, g3⟩
  -- the entry of the order
  obtain ⟨hka, hkb, _⟩ := hi.acks k hk
  have hkb' : k.id ∈ dkeys b := by rw [hb2, poll_keys]; exact hkb
  rw [mem_dkeys_iff, Option.isSome_iff_exists] at hkb'
  obtain ⟨i, hdi⟩ := hkb'
  obtain ⟨k', hk'1, hk'2, hgood, hunt⟩ := hbook k.id i hdi
  have hkk : k' = k := hi.uniq k' hk'1 k hka hk'2
  subst hkk
  obtain ⟨b1, b2, hsplit⟩ := List.append_of_mem (mem_of_dget hdi)
  have hinfos : infos = dvalues b1 ++ i :: dvalues b2 := by rw [hb1, hsplit]; simp [dvalues]
  have hwfr : WellFormedReport (dvalues b1 ++ i :: dvalues b2) := by
    rw [← hinfos, hb1]
    intro j hj
    obtain ⟨p, hp, rfl⟩ := List.mem_map.1 hj
    obtain ⟨k0, _, _, hg0⟩ := hall p hp
    obtain ⟨r, hr, _⟩ := hg0.load
    exact ⟨⟨_, hg0.asked.1⟩, r, hr⟩
  have hlast : ∀ j ∈ dvalues b2, j.orderId ≠ i.orderId := by
    intro j hj he
    obtain ⟨p, hp, rfl⟩ := List.mem_map.1 hj
    obtain ⟨k0, _, hk0, hg0⟩ := hall p (by rw [hsplit]; simp [hp])
    have hid : p.1 = k'.id := by
      have e1 := hg0.asked.1
      have e2 := hgood.asked.1
      rw [he, e2] at e1
      injection e1 with e1
      rw [← hk0, e1]
    have hnd := hbok
    rw [hsplit, DictOk, dkeys, List.map_append, List.map_cons] at hnd
    have := (List.nodup_append.1 hnd).2.1
    rw [List.nodup_cons] at this
    exact this.1 (List.mem_map.2 ⟨p, hp, hid⟩)
  obtain ⟨id, o, ho1, ho2, ho3⟩ := c29_reported_present (axGate ν) t.acct hi.wf g (dvalues b1) (dvalues b2) i (by rw [← hinfos]; exact hG) hwfr hlast
  have hid : id = k'.id := by
    rw [hgood.asked.1] at ho1; injection ho1 with ho1; exact ho1.symm
  subst hid
  refine ⟨o, ho2, ?_, ?_⟩
  · obtain ⟨k0, g1, g2, g3⟩ := hi'.acct k'.id o ho2
    simp only [AOp.asks, List.append_nil] at g1
    rw [hi.uniq k0 g1 k' hka g2] at g3
    exact g3
  · have hoid : o.orderId = k'.id := by
      have e := ho3.hId
      rw [hgood.asked.1] at e; injection e with e; exact e.symm
    have hval := hdi
    rw [hb2, poll_dget hwr hwu hi.res hi.upd hone] at hval
    have htw : ∀ (cols : Nat) (c : Str), (∀ l ∈ rawLines c, lineKind cols l.1 ≠ .stop) → (rawLines c).takeWhile (notStop cols) = rawLines c := by
      intro cols c hc
      have := List.takeWhile_append_of_pos (p := notStop cols) (l₁ := rawLines c) (l₂ := []) (fun l hl => by simpa [notStop] using hc l hl)
      simpa using this
    rw [htw 6 _ hgr, htw 20 _ hgu] at hval
    simp only at hval
    cases h00 : dget t.acct.gate.ax.book k'.id with
    | none => rw [h00] at hval; cases hval
    | some i0 =>
      rw [h00] at hval
      simp only [Option.map_some, Option.some.injEq] at hval
      refine ⟨fun hr => ?_, fun ln hl hp => ?_, fun hr hu => ?_⟩
      · rw [hoid] at hr
        have hu : ¬ UpdatedIn k'.id ((U t.acct.gate.n).getD []) := fun hu => hone _ ⟨hr, hu⟩
        rw [linesView_trivial (cols := 20) k'.id _ (not_updated_view hu)] at hval
        have hst := linesView_rejected (id := k'.id) (rawLines ((R t.acct.gate.n).getD [])) i0 hr
        rw [hval] at hst
        exact shows_status ho3 (st := .rejected) hst
      · rw [hoid] at hl
        obtain ⟨before, l, after, items, l1, l2, l3, l4, l5⟩ := hl
        have := linesView_last (id := k'.id) before after l items ln (linesView 6 resView k'.id (rawLines ((R t.acct.gate.n).getD [])) i0) l2 l3 l4 l5 hp
        rw [← l1, hval] at this
        exact saysLine_shows ho3 this
      · rw [hoid] at hr hu
        have hnew := hunt hr hu
        rw [hnew] at ho3
        refine ⟨shows_status ho3 (st := .new) rfl, ho3.hFilled, ho3.hCanceled, ho3.hConfirm, ?_⟩
        rcases ho3.hCost with ⟨e, _⟩ | ⟨_, _, _, e, _⟩
        · exact e
        · cases e

/-- The same through the API: `get_orders()` after such a synchronisation. -/
theorem c64_get_orders_shown (D : Str) (conf : AXConf) (fs : Files) (env : Nat → Env) (R U : Nat → Option Str) (n : Nat) (used : List Str)
    (hB : Broker D env R U) (hwin : conf.win = false) (hign : conf.ignoreErr = true) (h0 : fs (.data conf.dataDay) = none)
    (asked : List (Ack ν)) (t : PState ν) (h : FRun R U ⟨Acct.init ⟨AX.setup conf fs, env, n⟩, [], used⟩ asked t)
    (g : AXG ν) (infos : List (OrderInfo ν)) (hG : (axGate ν).orders t.acct.gate = (g, .ok infos)) (udig : Char → Bool) (x : Ctx (AXG ν) ν)
    (hu : x.useAccount = true) (hx : x.acct = some (t.acct.syncOrders (axGate ν)).1) :
    ∃ d, x.getOrders udig none none none = .ok d ∧
      (∀ k ∈ t.acks, ∃ addr o, dget d k.id = some addr ∧ (t.acct.syncOrders (axGate ν)).1.userOrder addr = some o ∧ o.AsAsked k ∧
        o.ShowsFiles ((R t.acct.gate.n).getD []) ((U t.acct.gate.n).getD [])) ∧
      ∀ id addr, dget d id = some addr → ∃ k ∈ asked, ∃ o, k.id = id ∧ (t.acct.syncOrders (axGate ν)).1.userOrder addr = some o ∧ o.AsAsked k := by
  have hi := frun_inv hB hwin hign h0 h
  have hi' : FInv conf env R U (asked ++ (AOp.syncOrders : AOp ν).asks) ⟨(t.acct.step (axGate ν) .syncOrders).1,
      t.acks ++ (AOp.syncOrders : AOp ν).acks (t.acct.step (axGate ν) .syncOrders).2, t.used ++ (AOp.syncOrders : AOp ν).draws⟩ :=
    finv_step hB hwin hign .syncOrders hi (.op t (by simp [AOp.draws])) (by simp [AOp.asks])
  have hwf : (t.acct.syncOrders (axGate ν)).1.WF := hi'.wf
  obtain ⟨d, hd, hall⟩ := getOrders_all (udig := udig) hu hx hwf
  refine ⟨d, hd, fun k hk => ?_, fun id addr ha => ?_⟩
  · obtain ⟨o, h1, h2, h3⟩ := c64_accepted_orders_shown D conf fs env R U n used hB hwin hign h0 asked t h g infos hG k hk
    rw [Acct.find] at h1
    cases hb : dget (t.acct.syncOrders (axGate ν)).1.orders k.id with
    | none => rw [hb] at h1; cases h1
    | some addr =>
      rw [hb] at h1
      exact ⟨addr, o, (hall _ _).2 hb, h1, h2, h3⟩
  · rw [hall] at ha
    obtain ⟨o, h1, _⟩ := hwf.orders id addr ha
    obtain ⟨k, g1, g2, g3⟩ := hi'.acct id o (by
      show (t.acct.syncOrders (axGate ν)).1.find id = some o
      rw [Acct.find, ha]; exact h1)
    simp only [AOp.asks, List.append_nil] at g1
    exact ⟨k, g1, o, g2, h1, g3⟩

/-! A day with a crash: order 7 is acknowledged; the process is killed at the end of order 8 and started again; order 9 is
acknowledged.  The broker fills 7 and refuses 9. -/

def exDayR (i : Nat) : Option Str := if i < 3 then none else some c!"093002,1,9,1,13,no funds\n"
def exDayU (i : Nat) : Option Str := if i < 3 then none else some (fileText [exUpdate c!"7" c!"2" c!"100"])
def exDayEnv (i : Nat) : Env :=
  { demoEnv with ext := fun fs f => match f with
      | .results d => if d = c!"20240102" then exDayR i else fs f
      | .updates d => if d = c!"20240102" then exDayU i else fs f
      | _ => fs f }

private theorem dayU_line : rawLines (fileText [exUpdate c!"7" c!"2" c!"100"]) = [(recordText (exUpdate c!"7" c!"2" c!"100"), (recordText (exUpdate c!"7" c!"2" c!"100")).length + 1)] ∧
    lineKind 20 (recordText (exUpdate c!"7" c!"2" c!"100")) = .fields (exUpdate c!"7" c!"2" c!"100") := by decide +kernel

theorem exDay_broker : Broker c!"20240102" exDayEnv exDayR exDayU := by
  have hd : ∀ i, exDayR i = none ∧ exDayU i = none ∨ exDayR i = some c!"093002,1,9,1,13,no funds\n" ∧ exDayU i = some (fileText [exUpdate c!"7" c!"2" c!"100"]) := by
    intro i
    by_cases h : i < 3
    · exact .inl ⟨if_pos h, if_pos h⟩
    · exact .inr ⟨if_neg h, if_neg h⟩
  refine ⟨fun _ => rfl, fun _ _ => rfl, fun _ _ => rfl, fun _ _ _ => rfl, fun _ _ _ => ⟨(by intro h; cases h), (by intro h; cases h)⟩, fun i => ?_, fun i => ?_, fun i => ?_, fun i => ?_, fun i => ?_,
    fun i => ?_, fun i => ?_, fun i => ?_⟩
  · by_cases h : i < 3
    · exact ⟨(exDayR (i + 1)).getD [], by rw [exDayR, exDayR, if_pos h]; rfl⟩
    · exact ⟨[], by rw [exDayR, exDayR, if_neg h, if_neg (by omega)]; rfl⟩
  · by_cases h : i < 3
    · exact ⟨(exDayU (i + 1)).getD [], by rw [exDayU, exDayU, if_pos h]; rfl⟩
    · exact ⟨[], by rw [exDayU, exDayU, if_neg h, if_neg (by omega), List.append_nil]⟩
  · rcases hd i with ⟨h, _⟩ | ⟨h, _⟩
    · rw [h]; exact .inl rfl
    · rw [h]; exact .inr (by decide)
  · rcases hd i with ⟨_, h⟩ | ⟨_, h⟩
    · rw [h]; exact .inl rfl
    · rw [h]; exact .inr (by decide +kernel)
  · rcases hd i with ⟨h, _⟩ | ⟨h, _⟩
    · rw [h]; decide
    · rw [h]; decide +kernel
  · rcases hd i with ⟨_, h⟩ | ⟨_, h⟩
    · rw [h]; decide
    · rw [h]; decide +kernel
  · rcases hd i with ⟨_, h⟩ | ⟨_, h⟩
    · rw [h]; intro l hl; cases hl
    · rw [h]
      intro l hl items ln d h1 h2 h3
      rw [Option.getD_some, dayU_line.1, List.mem_singleton] at hl
      subst hl
      rw [dayU_line.2] at h1
      injection h1 with h1
      subst h1
      have : ∀ y, (OrderLine.ofItems (exUpdate c!"7" c!"2" c!"100")) = .ok y → strptime mCompact (y.orderDate ++ y.orderTime) = .ok ⟨2024, 1, 2, 9, 30, 1, 0⟩ := by
        intro y hy
        injection hy with hy
        subst hy
        decide +kernel
      rw [this ln h2] at h3
      injection h3 with h3
      subst h3
      decide
  · rintro id ⟨⟨l, hl, tm, c, m, h1⟩, ⟨l', hl', items, ln, h2, h3, h4⟩⟩
    rcases hd i with ⟨_, h⟩ | ⟨hr, h⟩
    · rw [h] at hl'; cases hl'
    · rw [h, Option.getD_some, dayU_line.1, List.mem_singleton] at hl'
      subst hl'
      rw [dayU_line.2] at h2
      injection h2 with h2
      subst h2
      injection h3 with h3
      subst h3
      rw [hr, Option.getD_some] at hl
      have hraw : rawLines c!"093002,1,9,1,13,no funds\n" = [(c!"093002,1,9,1,13,no funds", 25)] := by decide +kernel
      rw [hraw, List.mem_singleton] at hl
      subst hl
      have hk : lineKind 6 c!"093002,1,9,1,13,no funds" = .fields [c!"093002", c!"1", c!"9", c!"1", c!"13", c!"no funds"] := by decide +kernel
      rw [hk] at h1
      injection h1 with h1
      rw [← h4] at h1
      revert h1
      simp only [List.cons.injEq]
      rintro ⟨_, _, h, _⟩
      exact absurd h (by decide)

def dayStart : PState Int := ⟨Acct.init ⟨AX.setup (demoConf false) fun _ => none, exDayEnv, 0⟩, [], []⟩
private def ask (n : Nat) : AOp Int := .order n demoEnv.now c!"600000.XSHG" (n * 100) (.limit 12) .long

private def next (t : PState Int) (op : AOp Int) : PState Int :=
  ⟨(t.acct.step (axGate Int) op).1, t.acks ++ op.acks (t.acct.step (axGate Int) op).2, t.used ++ op.draws⟩
/-- Everything that order 8 writes, in one piece. -/
private def ops8 (t : PState Int) : List FOp :=
  let s := t.acct.gate.ready
  let text := (Store.dump (dset s.book (natStr 8) (newInfo (natStr 8) demoEnv.now c!"600000.XSHG" 800 (.limit 12)))).getD []
  let items := (orderFields s.conf demoEnv.now (newOrder (ν := Int) (natStr 8) demoEnv.now c!"600000.XSHG" 800 (.limit 12))).toOption.getD []
  writeOps (.orders demoEnv.day) [addedText s.conf.win (.orders demoEnv.day) orderHeader (joinWith c!"," items ++ linesep s.conf.win) s.files] ++
    saveOps s.conf.win s.conf.dataDay [text] [text] (s.files (.data s.conf.dataDay)).isSome
private def day1 : PState Int := next dayStart (ask 7)
private def day2 : PState Int :=
  ⟨Acct.init ⟨AX.setup day1.acct.gate.ax.conf (runOps day1.acct.gate.ready.files (ops8 day1)), day1.acct.gate.env, day1.acct.gate.n + 1⟩,
    day1.acks, day1.used ++ (ask 8).draws⟩
def day3 : PState Int := next day2 (ask 9)

theorem day_run : FRun exDayR exDayU dayStart [⟨c!"7", demoEnv.now, c!"600000.XSHG", 700, .limit 12⟩, ⟨c!"8", demoEnv.now, c!"600000.XSHG", 800, .limit 12⟩,
    ⟨c!"9", demoEnv.now, c!"600000.XSHG", 900, .limit 12⟩] day3 := by
  have hno : ∀ id i, i < 3 → ¬ RejectedIn id ((exDayR i).getD []) ∧ ¬ UpdatedIn id ((exDayU i).getD []) := by
    intro id i hi
    rw [exDayR, exDayU, if_pos hi, if_pos hi]
    exact ⟨fun ⟨l, hl, _⟩ => (by cases hl), fun ⟨l, hl, _⟩ => (by cases hl)⟩
  have hask : ∀ (t : PState Int) m, t.acct.gate.n < 3 → ∀ k ∈ (ask m).asks, k.now.ok ∧ ¬ RejectedIn k.id ((exDayR t.acct.gate.n).getD []) ∧ ¬ UpdatedIn k.id ((exDayU t.acct.gate.n).getD []) := by
    intro t m ht k hk
    simp only [ask, AOp.asks, List.mem_singleton] at hk
    subst hk
    exact ⟨⟨(by decide : demoEnv.now.valid = true), (by decide : 1000 ≤ demoEnv.now.year)⟩, hno _ _ ht⟩
  have h1 : FRun exDayR exDayU dayStart ([] ++ (ask 7).asks) day1 := .step (ask 7) .refl (.op _ (by decide +kernel)) (hask _ _ (by decide +kernel))
  have h2 : FRun exDayR exDayU dayStart (([] ++ (ask 7).asks) ++ (ask 8).asks) day2 := by
    refine .step (ask 8) h1 (.crash _ (ops8 day1) (ops8 day1) (by decide +kernel) ?_ (List.prefix_refl _)) (hask _ _ (by decide +kernel))
    exact .order (load_newOrderInfo _ _ _ _ _) rfl (by simp; rfl) (newOrder_json _ _ _ _ _) (.saved (text := (Store.dump (dset day1.acct.gate.ready.book (natStr 8)
      (newInfo (natStr 8) demoEnv.now c!"600000.XSHG" 800 (.limit 12)))).getD []) rfl (by simp) (by simp))
  exact .step (ask 9) h2 (.op _ (by decide +kernel)) (hask _ _ (by decide +kernel))

example : Broker c!"20240102" exDayEnv exDayR exDayU ∧ (∃ asked, FRun exDayR exDayU dayStart asked day3 ∧ asked.map (·.id) = [c!"7", c!"8", c!"9"]) ∧
    day3.acks.map (·.id) = [c!"7", c!"9"] ∧ ((axGate Int).orders day3.acct.gate).2.isOk = true ∧
    [c!"7", c!"8", c!"9"].map (fun id => ((day3.acct.syncOrders (axGate Int)).1.find id).map fun o => (o.amount, o.status, o.filled)) =
      [some (700, some .filled, 100), some (800, some .new, 0), some (900, some .rejected, 0)] := by
  refine ⟨exDay_broker, ⟨_, day_run, by decide +kernel⟩, by decide +kernel, by decide +kernel, by decide +kernel⟩

end Jq
