import Verif.Props.C64_Flow
import Verif.Props.C99_UserView
import Verif.Spec.ReadFiles
set_option linter.unusedSectionVars false
/-! # C99: from the broker's files to what a strategy reads -/
namespace Jq
variable {ν : Type} [CellNum ν] [Store ν] [LawfulStore ν]

theorem reads_as_asked {read : Str → Py (AttrVal ν)} {o : Order ν} {k : Ack ν} (hr : ∀ name, read name = o.attr name) (ha : o.AsAsked k) :
    ReadsAsAsked read k := by
  intro e he
  simp only [List.mem_cons, List.not_mem_nil, or_false] at he
  rw [hr]
  rcases he with rfl | rfl | rfl | rfl | rfl | rfl | rfl
  · show Except.ok (AttrVal.str o.orderId) = _; rw [ha.hId]
  · show Except.ok (AttrVal.str o.code) = _; rw [ha.hCode]
  · show Except.ok (AttrVal.int o.amount) = _
    rw [ha.hAmount]
    congr 2
    split <;> omega
  · show Except.ok (AttrVal.str o.action.name) = _
    rw [ha.hAction]
    simp only
    split <;> rfl
  · show Except.ok (AttrVal.opt AttrVal.style o.style) = _; rw [ha.hStyle]; rfl
  · show Except.ok (AttrVal.num o.price) = _; rw [ha.hPrice]
  · show Except.ok (AttrVal.opt AttrVal.time o.createTime) = _; rw [ha.hCreated]; rfl

theorem reads_as_filed {read : Str → Py (AttrVal ν)} {o : Order ν} {k : Ack ν} {results updates : Str} (hr : ∀ name, read name = o.attr name)
    (ha : o.AsAsked k) (hs : o.ShowsFiles results updates) : ReadsAsFiled read k results updates := by
  have hst : ∀ s, o.status = some s → read c!"status" = .ok (.str s.name) := by
    intro s e
    rw [hr]
    show (needAttr o.status).map _ = _
    rw [e]; rfl
  refine ⟨?_, fun hrej => hst _ (hs.refused (ha.hId ▸ hrej)), fun h3 h4 => ?_, fun ln hl hp => ?_⟩
  · exact reads_as_asked hr ha
  · obtain ⟨e1, e2, e3, _, e5⟩ := hs.untouched (ha.hId ▸ h3) (ha.hId ▸ h4)
    intro e he
    simp only [List.mem_cons, List.not_mem_nil, or_false] at he
    rcases he with rfl | rfl | rfl | rfl
    · exact hst _ e1
    · rw [hr]; show Except.ok (AttrVal.int o.filled) = _; rw [e2]
    · rw [hr]; show Except.ok (AttrVal.int o.canceled) = _; rw [e3]
    · rw [hr]; show Except.ok (AttrVal.opt AttrVal.num o.avgCost) = _; rw [e5]; rfl
  · have hu' := hs.updated ln (ha.hId ▸ hl) hp
    obtain ⟨st, s1, s2⟩ := hu'.hStatus
    obtain ⟨w, b1, b2⟩ := hu'.hBalance
    obtain ⟨w', y, c1, c2, c3⟩ := hu'.hCost
    refine ⟨⟨st, s1, hst _ s2⟩, ⟨_, hu'.hFilled, by rw [hr]; rfl⟩, ⟨_, hu'.hCanceled, by rw [hr]; rfl⟩, ⟨_, w, b1, by rw [hr]; rfl, b2⟩, ⟨y, w', c1, ?_, c3⟩⟩
    rw [hr]; show Except.ok (AttrVal.opt AttrVal.num o.avgCost) = _; rw [c2]; rfl

/-- The built-in gate during a day, with crashes and restarts: after a synchronisation every acknowledged order can be read; it says what was
asked, and what the broker's files say of it. -/
theorem c99_from_files (D : Str) (conf : AXConf) (fs : Files) (env : Nat → Env) (R U : Nat → Option Str) (n : Nat) (used : List Str)
    (hB : Broker D env R U) (hwin : conf.win = false) (hign : conf.ignoreErr = true) (h0 : fs (.data conf.dataDay) = none)
    (asked : List (Ack ν)) (t : PState ν) (h : FRun R U ⟨Acct.init ⟨AX.setup conf fs, env, n⟩, [], used⟩ asked t)
    (g : AXG ν) (infos : List (OrderInfo ν)) (hG : (axGate ν).orders t.acct.gate = (g, .ok infos)) (udig : Char → Bool) (x : Ctx (AXG ν) ν)
    (hu : x.useAccount = true) (hx : x.acct = some (t.acct.syncOrders (axGate ν)).1) (k : Ack ν) (hk : k ∈ t.acks) :
    ReadsAsFiled (x.orderAttr udig k.id) k ((R t.acct.gate.n).getD []) ((U t.acct.gate.n).getD []) := by
  obtain ⟨d, hd, hall, _⟩ := c64_get_orders_shown D conf fs env R U n used hB hwin hign h0 asked t h g infos hG udig x hu hx
  obtain ⟨addr, o, h1, h2, ha, hs⟩ := hall k hk
  have hacc : x.account = .ok (t.acct.syncOrders (axGate ν)).1 := by simp [Ctx.account, hu, hx]
  refine reads_as_filed (fun name => ?_) ha hs
  simp only [Ctx.orderAttr, hd, hacc, bind, Except.bind, h1, Option.bind_some, h2]

/-- The day of C64: order 7 is filled, 9 is refused. -/
example :
    let x : Ctx (AXG Int) Int := ⟨true, some (day3.acct.syncOrders (axGate Int)).1⟩
    (∃ asked, FRun exDayR exDayU dayStart asked day3) ∧ Broker c!"20240102" exDayEnv exDayR exDayU ∧ day3.acks.map (·.id) = [c!"7", c!"9"] ∧
    ((axGate Int).orders day3.acct.gate).2.isOk = true ∧
    x.orderAttr (fun _ => false) c!"7" c!"status" = .ok (.str c!"filled") ∧ x.orderAttr (fun _ => false) c!"7" c!"filled_amount" = .ok (.int 100) ∧
    x.orderAttr (fun _ => false) c!"9" c!"status" = .ok (.str c!"rejected") ∧ x.orderAttr (fun _ => false) c!"9" c!"amount" = .ok (.int 900) := by
  refine ⟨⟨_, day_run⟩, exDay_broker, by decide +kernel, by decide +kernel, by decide +kernel, by decide +kernel, by decide +kernel, by decide +kernel⟩

end Jq
