import Verif.Model.Tasks
import Verif.Props.C48_Cli
/-! # C49: two tasks with one name -/
namespace Jq

private def Sees (m : Machine) (b a : Nat) : Prop :=
  ∃ par todo seen, m.phase b = .listing par todo seen ∧ (a ∈ todo ∨ ∃ e, .ok e ∈ seen ∧ e.pid = a)

private def Begun (m : Machine) (q : Nat) : Prop := m.phase q = .past ∨ ∃ par todo seen, m.phase q = .listing par todo seen

private def IsTask (m : Machine) (q : Nat) (name : Str) : Prop := m.kind q = some (.task name)

private structure MInv (m : Machine) : Prop where
  len : ∀ q, m.alive q = true → q < m.procs.length
  init : m.kind 0 = some .other
  birth : ∀ (q : Nat) (p : OsProc), m.procs[q]? = some p → p.born < m.procs.length
  child : ∀ (q : Nat) (p pp : OsProc), m.procs[q]? = some p → isTaskCmd p.cmd = true → m.procs[p.born]? = some pp → pp.kind ≠ .other →
    p.kind = .copy ∧ p.cmd = pp.cmd ∧ p.born < q
  task : ∀ (q : Nat) (p : OsProc) (name : Str), m.procs[q]? = some p → p.kind = .task name → isTaskCmd p.cmd = true ∧
    ∀ info n, parseTaskInfo p.cmd = .ok info → info.name = some n → n = name
  seen : ∀ q par todo seen, m.phase q = .listing par todo seen → Listable seen ∧
    (∀ e, .ok e ∈ seen → ∃ p, m.procs[e.pid]? = some p ∧ e.cmd = p.cmd ∧ (e.ppid = some p.born ∨ e.ppid = some 0 ∨ e.ppid = none)) ∧
    (∃ p, m.procs[q]? = some p ∧ (par = p.born ∨ par = 0))
  pair : ∀ a b name, a ≠ b → m.alive a = true → m.alive b = true → IsTask m a name → IsTask m b name → Begun m a → Begun m b → Sees m a b ∨ Sees m b a

private theorem exists_max {α : Type} (f : α → Nat) (l : List α) (h : l ≠ []) : ∃ x ∈ l, ∀ y ∈ l, f y ≤ f x := by
  induction l with
  | nil => exact absurd rfl h
  | cons a l ih =>
    by_cases hl : l = []
    · subst hl; exact ⟨a, by simp, by simp⟩
    · obtain ⟨x, h1, h2⟩ := ih hl
      by_cases hc : f x ≤ f a
      · refine ⟨a, by simp, fun y hy => ?_⟩
        rcases List.mem_cons.1 hy with rfl | hy
        · exact Nat.le_refl _
        · exact Nat.le_trans (h2 y hy) hc
      · refine ⟨x, by simp [h1], fun y hy => ?_⟩
        rcases List.mem_cons.1 hy with rfl | hy
        · omega
        · exact h2 y hy

private theorem existsNamed_hit (cur parent : Nat) (name : Str) (again : Nat → Py (List Str)) (l : List ProcEntry) (e : ProcEntry) (he : e ∈ l)
    (h1 : e.pid ≠ cur) (h2 : e.pid ≠ parent) (h3 : ∀ n, taskName again e = .ok n → n = name) : existsNamed cur parent name again l ≠ .ok false := by
  induction l with
  | nil => cases he
  | cons x l ih =>
    simp only [existsNamed]
    rcases List.mem_cons.1 he with rfl | he
    · rw [if_neg (by simp [h1, h2])]
      cases ht : taskName again e with
      | error y => simp
      | ok n => simp [h3 n ht]
    · split
      · exact ih he
      · split
        · simp
        · split
          · simp
          · exact ih he

private theorem taskEntries_mem (vs : List ProcView) (h : Listable vs) : ∃ es, taskEntries vs = .ok es ∧
    ∀ e, e ∈ es ↔ .ok e ∈ vs ∧ isTaskCmd e.cmd = true := by
  induction vs with
  | nil => exact ⟨[], rfl, by simp⟩
  | cons v vs ih =>
    obtain ⟨es, h1, h2⟩ := ih (fun r hm => h r (by simp [hm]))
    cases v with
    | gone => exact ⟨es, h1, by simpa using h2⟩
    | denied b =>
      obtain rfl := h b (by simp)
      exact ⟨es, h1, by simpa using h2⟩
    | ok e =>
      by_cases hc : isTaskCmd e.cmd = true
      · refine ⟨e :: es, by simp only [taskEntries, hc, if_true, h1], ?_⟩
        intro x
        simp only [List.mem_cons, h2, ProcView.ok.injEq]
        constructor
        · rintro (rfl | ⟨g1, g2⟩)
          · exact ⟨.inl rfl, hc⟩
          · exact ⟨.inr g1, g2⟩
        · rintro ⟨g1 | g1, g2⟩
          · exact .inl g1
          · exact .inr ⟨g1, g2⟩
      · refine ⟨es, by simp only [taskEntries, hc]; exact h1, ?_⟩
        intro x
        simp only [List.mem_cons, h2, ProcView.ok.injEq]
        constructor
        · rintro ⟨g1, g2⟩; exact ⟨.inr g1, g2⟩
        · rintro ⟨rfl | g1, g2⟩
          · exact absurd g2 hc
          · exact ⟨g1, g2⟩

private theorem kind_eq {m : Machine} {q : Nat} {p : OsProc} (h : m.procs[q]? = some p) : m.kind q = some p.kind := by simp only [Machine.kind, h]; rfl

/-- The heart: a task that was seen makes the check fail. -/
private theorem judge_fails {m : Machine} (hi : MInv m) {a b par : Nat} {name : Str} {seen : List ProcView} {again : Nat → Py (List Str)} (hab : a ≠ b)
    (ha : IsTask m a name) (hb : IsTask m b name) (hp : m.phase b = .listing par [] seen) (hs : ∃ e, .ok e ∈ seen ∧ e.pid = a)
    (hag : ∀ r c, again r = .ok c → ∃ x, m.procs[r]? = some x ∧ c = x.cmd) : existRepeated b par name seen again ≠ .ok false := by
  obtain ⟨hden, hse, pb, hpb, hpar⟩ := hi.seen b par [] seen hp
  obtain ⟨es, h1, h2⟩ := taskEntries_mem seen hden
  obtain ⟨ea, hea, hpa⟩ := hs
  obtain ⟨pa, hpa1, hpa2, _⟩ := hse ea hea
  rw [hpa] at hpa1
  have hka : pa.kind = .task name := by have := (kind_eq hpa1).symm.trans ha; simpa using this
  have hkb : pb.kind = .task name := by have := (kind_eq hpb).symm.trans hb; simpa using this
  obtain ⟨hta, hna⟩ := hi.task a pa name hpa1 hka
  -- the family of `a` among what was seen
  let D := es.filter fun e => decide (m.kind e.pid ≠ some .other ∧ e.cmd = pa.cmd ∧ e.pid ≠ b)
  have hDne : D ≠ [] := by
    intro h0
    have : ea ∈ D := by
      refine List.mem_filter.2 ⟨(h2 ea).2 ⟨hea, by rw [hpa2]; exact hta⟩, ?_⟩
      rw [decide_eq_true_eq, hpa]
      exact ⟨by rw [ha]; simp, hpa2, hab⟩
    rw [h0] at this; cases this
  obtain ⟨e, heD, hmax⟩ := exists_max (·.pid) D hDne
  obtain ⟨hees, hed⟩ := List.mem_filter.1 heD
  rw [decide_eq_true_eq] at hed
  obtain ⟨hek, hec, heb⟩ := hed
  obtain ⟨pe, hpe1, hpe2, _⟩ := hse e ((h2 e).1 hees).1
  have hek' : pe.kind ≠ .other := by rw [kind_eq hpe1] at hek; simpa using hek
  -- it is not hidden
  have hact : e ∈ dropParents es := by
    refine List.mem_filter.2 ⟨hees, ?_⟩
    simp only [Bool.not_eq_true', List.contains_eq_mem, decide_eq_false_iff_not, List.mem_map, not_exists, not_and]
    intro x hx hxp
    obtain ⟨hx1, hx2⟩ := (h2 x).1 hx
    obtain ⟨px, hpx1, hpx2, hpx3⟩ := hse x hx1
    rcases hpx3 with hpx3 | hpx3 | hpx3
    · have hb' : px.born = e.pid := Option.some.inj (hpx3.symm.trans hxp)
      have := hi.child x.pid px pe hpx1 (by rw [← hpx2]; exact hx2) (by rw [hb']; exact hpe1) hek'
      obtain ⟨g1, g2, g3⟩ := this
      have hxD : x ∈ D := by
        refine List.mem_filter.2 ⟨hx, ?_⟩
        rw [decide_eq_true_eq]
        refine ⟨by rw [kind_eq hpx1, g1]; simp, by rw [hpx2, g2, ← hpe2]; exact hec, fun hxb => ?_⟩
        rw [hxb] at hpx1
        rw [hpb] at hpx1
        injection hpx1 with hpx1
        rw [← hpx1, hkb] at g1
        cases g1
      have := hmax x hxD
      rw [hb'] at g3
      omega
    · rw [hpx3] at hxp
      injection hxp with hxp
      rw [← hxp, hi.init] at hek
      exact hek rfl
    · rw [hpx3] at hxp; cases hxp
  have hepar : e.pid ≠ par := by
    intro h
    rcases hpar with hpar | hpar
    · have := hi.child b pb pe hpb (hi.task b pb name hpb hkb).1 (by rw [← hpar, ← h]; exact hpe1) hek'
      rw [hkb] at this
      cases this.1
    · rw [h, hpar, hi.init] at hek; exact hek rfl
  simp only [existRepeated, activeTasks, h1]
  refine existsNamed_hit b par name again _ e hact heb hepar ?_
  intro n hn
  simp only [taskName] at hn
  split at hn
  · cases hn
  · rename_i c hc
    obtain ⟨x, hx1, hx2⟩ := hag _ _ hc
    rw [hpe1] at hx1
    injection hx1 with hx1
    split at hn
    · cases hn
    · rename_i info hinfo
      split at hn
      · cases hn
      · rename_i n' hn'
        injection hn with hn
        subst hn
        exact hna info n' (by rw [← hinfo, hx2, ← hx1, ← hec, hpe2]) hn'

private theorem get_add {m : Machine} {p : OsProc} {q : Nat} : (m.add p).procs[q]? = if q = m.procs.length then some p else m.procs[q]? := by
  simp only [Machine.add]
  by_cases h : q = m.procs.length
  · subst h; simp
  · rw [if_neg h]
    rcases Nat.lt_or_ge q m.procs.length with hl | hl
    · rw [List.getElem?_append_left hl]
    · rw [List.getElem?_append_right hl, List.getElem?_eq_none (by simp; omega), List.getElem?_eq_none hl]

private theorem kind_add {m : Machine} {p : OsProc} {q : Nat} : (m.add p).kind q = if q = m.procs.length then some p.kind else m.kind q := by
  simp only [Machine.kind, get_add]; split <;> rfl

/-- Adding a process that is not a task, or a task that has not begun. -/
private theorem minv_add {m : Machine} (hi : MInv m) (p : OsProc) (halive : m.alive p.born = true)
    (hchild : isTaskCmd p.cmd = true → ∀ pp, m.procs[p.born]? = some pp → pp.kind ≠ .other → p.kind = .copy ∧ p.cmd = pp.cmd)
    (htask : ∀ name, p.kind = .task name → isTaskCmd p.cmd = true ∧ ∀ info n, parseTaskInfo p.cmd = .ok info → info.name = some n → n = name) :
    MInv (m.add p) := by
  have hlen : (m.add p).procs.length = m.procs.length + 1 := by simp [Machine.add]
  have hbl := hi.len _ halive
  have hnew : ∀ q, (m.add p).alive q = true → q = m.procs.length ∨ m.alive q = true := by
    intro q; simp only [Machine.add]; split
    · rename_i h; exact fun _ => .inl h
    · exact .inr
  have hph : ∀ q, q ≠ m.procs.length → (m.add p).phase q = m.phase q := fun q hq => by simp only [Machine.add, if_neg hq]
  have hph' : (m.add p).phase m.procs.length = .starting := by simp [Machine.add]
  have hz : m.procs.length ≠ 0 := by omega
  refine ⟨?_, ?_, ?_, ?_, ?_, ?_, ?_⟩
  · intro q hq
    rcases hnew q hq with h | h
    · omega
    · have := hi.len q h; omega
  · rw [kind_add, if_neg (fun h => hz h.symm)]; exact hi.init
  · intro q x hx
    rw [get_add] at hx
    split at hx
    · injection hx with hx; subst hx; omega
    · have := hi.birth q x hx; omega
  · intro q x xx hx ht hxx hk
    rw [get_add] at hx hxx
    split at hx
    · injection hx with hx
      subst hx
      rw [if_neg (by omega)] at hxx
      obtain ⟨g1, g2⟩ := hchild ht xx hxx hk
      exact ⟨g1, g2, by omega⟩
    · have := hi.birth q x hx
      rw [if_neg (by omega)] at hxx
      exact hi.child q x xx hx ht hxx hk
  · intro q x name hx hk
    rw [get_add] at hx
    split at hx
    · injection hx with hx; subst hx; exact htask name hk
    · exact hi.task q x name hx hk
  · intro q par todo seen hq
    have hql : q ≠ m.procs.length := fun e => by rw [e, hph'] at hq; cases hq
    rw [hph q hql] at hq
    obtain ⟨g1, g2, x, g3, g4⟩ := hi.seen q par todo seen hq
    refine ⟨g1, fun e he => ?_, x, ?_, g4⟩
    · obtain ⟨y, k1, k2⟩ := g2 e he
      refine ⟨y, ?_, k2⟩
      rw [get_add, if_neg]; exact k1
      intro e'; rw [e', List.getElem?_eq_none (by simp)] at k1; cases k1
    · rw [get_add, if_neg hql]; exact g3
  · intro a b name hab ha hb hta htb hba hbb
    have hal : a ≠ m.procs.length := by
      rintro rfl
      rcases hba with h | ⟨_, _, _, h⟩ <;> rw [hph'] at h <;> cases h
    have hbl : b ≠ m.procs.length := by
      rintro rfl
      rcases hbb with h | ⟨_, _, _, h⟩ <;> rw [hph'] at h <;> cases h
    simp only [Begun, hph a hal, hph b hbl, IsTask, kind_add, if_neg hal, if_neg hbl, Sees] at *
    exact hi.pair a b name hab ((hnew a ha).resolve_left hal) ((hnew b hb).resolve_left hbl) hta htb hba hbb

private theorem setPhase_self (m : Machine) (q : Nat) (p : TaskPhase) : (m.setPhase q p).phase q = p := by simp [Machine.setPhase]
private theorem setPhase_other (m : Machine) {q r : Nat} (h : r ≠ q) (p : TaskPhase) : (m.setPhase q p).phase r = m.phase r := by simp [Machine.setPhase, h]

private theorem exit_inv {m : Machine} (hi : MInv m) (q : Nat) : MInv { m with alive := fun r => if r = q then false else m.alive r } := by
  refine ⟨fun r hr => hi.len r ?_, hi.init, hi.birth, hi.child, hi.task, hi.seen, fun a b name hab ha hb => ?_⟩
  · simp only at hr; split at hr
    · cases hr
    · exact hr
  · have : ∀ r, (if r = q then false else m.alive r) = true → m.alive r = true := by
      intro r hr; split at hr
      · cases hr
      · exact hr
    exact hi.pair a b name hab (this a ha) (this b hb)

private theorem look_inv {m : Machine} (hi : MInv m) {q parent r : Nat} {todo : List Nat} {seen : List ProcView}
    (hph : m.phase q = .listing parent (r :: todo) seen) (v : ProcView) (hv1 : ∀ x, v = .denied x → x = .ok false)
    (hv2 : ∀ e, v = .ok e → ∃ p, m.procs[e.pid]? = some p ∧ e.cmd = p.cmd ∧ (e.ppid = some p.born ∨ e.ppid = some 0 ∨ e.ppid = none))
    (hv3 : m.alive r = true → ∃ e, v = .ok e ∧ e.pid = r) : MInv (m.setPhase q (.listing parent todo (seen ++ [v]))) := by
  obtain ⟨g1, g2, g3⟩ := hi.seen q parent (r :: todo) seen hph
  refine ⟨hi.len, hi.init, hi.birth, hi.child, hi.task, ?_, ?_⟩
  · intro x par todo' seen' hx
    by_cases hxq : x = q
    · subst hxq
      rw [setPhase_self] at hx
      injection hx with k1 k2 k3
      subst k1; subst k3
      refine ⟨?_, ?_, g3⟩
      · intro x hm
        rcases List.mem_append.1 hm with hm | hm
        · exact g1 x hm
        · rw [List.mem_singleton] at hm; exact hv1 x hm.symm
      · intro e he
        rcases List.mem_append.1 he with he | he
        · exact g2 e he
        · rw [List.mem_singleton] at he; exact hv2 e he.symm
    · rw [setPhase_other _ hxq] at hx; exact hi.seen x par todo' seen' hx
  · intro a b n hab haa hbb' hta htb hba hbb
    have hbeg : ∀ x, Begun (m.setPhase q (.listing parent todo (seen ++ [v]))) x → Begun m x := by
      intro x hx
      by_cases hxq : x = q
      · subst hxq; exact .inr ⟨_, _, _, hph⟩
      · simpa only [Begun, setPhase_other _ hxq] using hx
    have hsee : ∀ x y, m.alive y = true → Sees m x y → Sees (m.setPhase q (.listing parent todo (seen ++ [v]))) x y := by
      intro x y hy hx
      by_cases hxq : x = q
      · subst hxq
        obtain ⟨par, td, sn, k1, k2⟩ := hx
        rw [hph] at k1
        injection k1 with k1 k3 k4
        subst k3; subst k4
        refine ⟨_, _, _, setPhase_self _ _ _, ?_⟩
        rcases k2 with k2 | ⟨e, k2, k3⟩
        · rcases List.mem_cons.1 k2 with rfl | k2
          · right
            obtain ⟨e, he, hep⟩ := hv3 hy
            exact ⟨e, List.mem_append.2 (.inr (by rw [he]; simp)), hep⟩
          · exact .inl k2
        · exact .inr ⟨e, List.mem_append.2 (.inl k2), k3⟩
      · simpa only [Sees, setPhase_other _ hxq] using hx
    rcases hi.pair a b n hab haa hbb' hta htb (hbeg a hba) (hbeg b hbb) with h | h
    · exact .inl (hsee a b hbb' h)
    · exact .inr (hsee b a haa h)

private theorem minv_step {m m' : Machine} (hi : MInv m) (h : MStep true m m') : MInv m' := by
  cases h with
  | spawn parent cmd ha hs =>
    refine minv_add hi _ ha (fun ht pp hpp hk => ?_) (fun name h => by cases h)
    have := hs rfl ht
    rw [kind_eq hpp] at this
    injection this with this
    exact absurd this hk
  | start parent cmd name ha ht hn hs =>
    refine minv_add hi _ ha (fun _ pp hpp hk => ?_) (fun n h => by injection h with h; subst h; exact ⟨ht, hn⟩)
    have := hs rfl
    rw [kind_eq hpp] at this
    injection this with this
    exact absurd this hk
  | fork parent p ha hp hk =>
    refine minv_add hi _ ha (fun _ pp hpp _ => ?_) (fun n h => by cases h)
    rw [hp] at hpp
    injection hpp with hpp
    exact ⟨rfl, by rw [hpp]⟩
  | exit q hq => exact exit_inv hi q
  | begin q p name ha hp hk hph =>
    refine ⟨hi.len, hi.init, hi.birth, hi.child, hi.task, ?_, ?_⟩
    · intro r par todo seen hr
      by_cases hrq : r = q
      · subst hrq
        rw [setPhase_self] at hr
        injection hr with g1 g2 g3
        subst g1; subst g3
        refine ⟨(by intro _ hx; cases hx), by simp, p, hp, ?_⟩
        simp only [Machine.ppid]; split
        · exact .inl rfl
        · exact .inr rfl
      · rw [setPhase_other _ hrq] at hr; exact hi.seen r par todo seen hr
    · intro a b n hab haa hab' hta htb hba hbb
      have hall : ∀ r, m.alive r = true → r ∈ m.pids := fun r hr => List.mem_filter.2 ⟨List.mem_range.2 (hi.len r hr), hr⟩
      by_cases haq : a = q
      · subst haq
        exact .inl ⟨_, _, _, setPhase_self _ _ _, .inl (hall b hab')⟩
      · by_cases hbq : b = q
        · subst hbq
          exact .inr ⟨_, _, _, setPhase_self _ _ _, .inl (hall a haa)⟩
        · simp only [Begun, setPhase_other _ haq, setPhase_other _ hbq, Sees] at *
          exact hi.pair a b n hab haa hab' hta htb hba hbb
  | look q parent r todo seen ha hph =>
    refine look_inv hi hph (m.view r) ?_ ?_ ?_
    · intro x hx
      rw [Machine.view] at hx
      split at hx
      · split at hx <;> cases hx
      · cases hx
    · intro e he
      rw [Machine.view] at he
      split at he
      · rename_i p hp
        split at he
        · injection he with he
          subst he
          refine ⟨p, hp, rfl, ?_⟩
          simp only [Machine.ppid]; split
          · exact .inl rfl
          · exact .inr (.inl rfl)
        · cases he
      · cases he
    · intro hy
      obtain ⟨p, hp⟩ : ∃ p, m.procs[r]? = some p := ⟨_, List.getElem?_eq_getElem (hi.len r hy)⟩
      exact ⟨⟨r, some (m.ppid p), p.cmd⟩, by simp only [Machine.view, hp, hy, if_true], rfl⟩
  | lookEnding q parent r p todo seen ha hph hr hy hp =>
    exact exit_inv (look_inv hi hph (.ok ⟨r, none, p.cmd⟩) (by intro x hx; cases hx)
      (by intro e he; injection he with he; subst he; exact ⟨p, hp, rfl, .inr (.inr rfl)⟩) (fun _ => ⟨_, rfl, rfl⟩)) r
  | judge q parent p name seen again ha hp hk hph hag1 hag2 =>
    refine ⟨hi.len, hi.init, hi.birth, hi.child, hi.task, ?_, ?_⟩
    · intro x par todo' seen' hx
      by_cases hxq : x = q
      · subst hxq
        rw [setPhase_self] at hx
        split at hx <;> cases hx
      · rw [setPhase_other _ hxq] at hx; exact hi.seen x par todo' seen' hx
    · intro a b n hab haa hbb' hta htb hba hbb
      have hqt : IsTask m q name := by rw [IsTask, kind_eq hp, hk]
      -- seen from the other side
      have main : ∀ x, x ≠ q → IsTask m q n → IsTask m x n → m.alive x = true → Begun (m.setPhase q (if existRepeated q parent name seen again = .ok false then .past else .refused)) q →
          Begun m x → Sees (m.setPhase q (if existRepeated q parent name seen again = .ok false then .past else .refused)) x q := by
        intro x hxq htq htx hxa hbq hbx
        have hnn : name = n := by rw [IsTask] at hqt htq; rw [hqt] at htq; simpa using htq
        subst hnn
        have hpast : existRepeated q parent name seen again = .ok false := by
          by_cases h : existRepeated q parent name seen again = .ok false
          · exact h
          · rw [if_neg h] at hbq
            rcases hbq with hbq | ⟨_, _, _, hbq⟩ <;> rw [setPhase_self] at hbq <;> cases hbq
        rcases hi.pair x q name hxq hxa ha htx htq hbx (.inr ⟨_, _, _, hph⟩) with h | h
        · simpa only [Sees, setPhase_other _ hxq] using h
        · obtain ⟨par, td, sn, k1, k2⟩ := h
          rw [hph] at k1
          injection k1 with k0 k3 k4
          subst k3; subst k4
          rcases k2 with k2 | k2
          · cases k2
          · exact absurd hpast (judge_fails hi hxq htx hqt hph k2 hag1)
      by_cases haq : a = q
      · subst haq
        right
        have hbq : b ≠ a := fun e => hab e.symm
        exact main b hbq hta htb hbb' hba (by simpa only [Begun, setPhase_other _ hbq] using hbb)
      · by_cases hbq : b = q
        · subst hbq
          left
          exact main a haq htb hta haa hbb (by simpa only [Begun, setPhase_other _ haq] using hba)
        · simp only [Begun, setPhase_other _ haq, setPhase_other _ hbq, Sees] at *
          exact hi.pair a b n hab haa hbb' hta htb hba hbb

private theorem minv_run {m₀ m : Machine} (h0 : m₀.Fresh) (h : MRun true m₀ m) : MInv m := by
  have hother : ∀ (q : Nat) (p : OsProc), m₀.procs[q]? = some p → p.kind = .other := fun q p hp => h0.other p (List.mem_of_getElem? hp)
  induction h with
  | refl =>
    refine ⟨h0.alive, ?_, fun q p hp => h0.born p (List.mem_of_getElem? hp), fun q p pp _ _ hpp hk => absurd (hother _ pp hpp) hk,
      fun q p n hp hk => ?_, fun q par todo seen hq => ?_, fun a b n _ _ _ hta => ?_⟩
    · rw [kind_eq (List.getElem?_eq_getElem h0.init), h0.other _ (List.getElem_mem h0.init)]
    · rw [hother q p hp] at hk; cases hk
    · rw [h0.phase] at hq; cases hq
    · simp only [IsTask, Machine.kind, Option.map_eq_some_iff] at hta
      obtain ⟨p, hp, hk⟩ := hta
      rw [hother a p hp] at hk; cases hk
  | step _ h2 ih => exact minv_step ih h2

/-- In every interleaving, as long as no task starts a process whose command line has the two words other than by forking:
two tasks with the same name are never both past the check. -/
theorem c49_no_two_partial (m₀ m : Machine) (h0 : m₀.Fresh) (h : MRun true m₀ m) (a b : Nat) (name : Str) (ha : m.alive a = true) (hb : m.alive b = true)
    (hta : m.kind a = some (.task name)) (htb : m.kind b = some (.task name)) (hpa : m.phase a = .past) (hpb : m.phase b = .past) : a = b := by
  by_cases hab : a = b
  · exact hab
  · rcases (minv_run h0 h).pair a b name hab ha hb hta htb (.inl hpa) (.inl hpb) with ⟨_, _, _, h, _⟩ | ⟨_, _, _, h, _⟩
    · rw [hpa] at h; cases h
    · rw [hpb] at h; cases h

/-! ## Runs -/

/-- Command lines read again. -/
private def Machine.reread (m : Machine) (r : Nat) : Py (List Str) :=
  match m.procs[r]? with
  | some x => .ok x.cmd
  | none => .error .noSuchProcess

private theorem setPhase_twice (m : Machine) (q : Nat) (x y : TaskPhase) : (m.setPhase q x).setPhase q y = m.setPhase q y := by
  simp only [Machine.setPhase, Machine.mk.injEq, true_and]
  funext r; split <;> rfl

private theorem mrun_trans {s : Bool} {a b c : Machine} (h1 : MRun s a b) (h2 : MRun s b c) : MRun s a c := by
  induction h2 with
  | refl => exact h1
  | step _ h ih => exact .step ih h

/-- A check without interruption. -/
private theorem mrun_check (s : Bool) (m : Machine) (q : Nat) (p : OsProc) (name : Str) (ha : m.alive q = true) (hp : m.procs[q]? = some p) (hk : p.kind = .task name)
    (hph : m.phase q = .starting) :
    MRun s m (m.setPhase q (if existRepeated q (m.ppid p) name (m.pids.map m.view) m.reread = .ok false then .past else .refused)) := by
  have h1 : MRun s m (m.setPhase q (.listing (m.ppid p) m.pids [])) := .step (.refl _) (.begin m q p name ha hp hk hph)
  have h2 : ∀ (todo : List Nat) (seen : List ProcView), MRun s (m.setPhase q (.listing (m.ppid p) todo seen)) (m.setPhase q (.listing (m.ppid p) [] (seen ++ todo.map m.view))) := by
    intro todo
    induction todo with
    | nil => intro seen; rw [List.map_nil, List.append_nil]; exact .refl _
    | cons r todo ih =>
      intro seen
      have hl : MStep s (m.setPhase q (.listing (m.ppid p) (r :: todo) seen)) (m.setPhase q (.listing (m.ppid p) todo (seen ++ [m.view r]))) := by
        have := MStep.look (strict := s) (m.setPhase q (.listing (m.ppid p) (r :: todo) seen)) q (m.ppid p) r todo seen ha (setPhase_self _ _ _)
        rwa [setPhase_twice] at this
      have := mrun_trans (.step (.refl _) hl) (ih (seen ++ [m.view r]))
      rwa [List.append_assoc] at this
  have h3 := mrun_trans h1 (h2 m.pids [])
  have h4 := MStep.judge (strict := s) (m.setPhase q (.listing (m.ppid p) [] ([] ++ m.pids.map m.view))) q (m.ppid p) p name _ m.reread ha hp hk (setPhase_self _ _ _)
    (fun r c hc => by
      simp only [Machine.reread] at hc
      split at hc
      · rename_i x hx; injection hc with hc; exact ⟨x, hx, hc.symm⟩
      · cases hc)
    (fun r x _ hx => by
      have hx' : m.procs[r]? = some x := hx
      simp only [Machine.reread, hx'])
  rw [setPhase_twice] at h4
  exact .step h3 h4

private def cmdOf (name : Str) : List Str := [c!"python", c!"-m", c!"jqtrade", c!"start_task", c!"-n", name, c!"-c", c!"s.py"]

private def machine0 : Machine := { procs := [⟨0, [c!"init"], .other⟩], alive := fun q => q == 0 }

private theorem machine0_fresh : machine0.Fresh :=
  ⟨by decide, by decide, by decide, fun q h => by simp only [machine0, beq_iff_eq] at h; subst h; decide, fun _ => rfl⟩

/-- After an uninterrupted check. -/
private def Machine.checked (m : Machine) (q : Nat) (p : OsProc) (name : Str) : Machine :=
  m.setPhase q (if existRepeated q (m.ppid p) name (m.pids.map m.view) m.reread = .ok false then .past else .refused)

private theorem name_cmdOf (name : Str) (h : name = c!"a" ∨ name = c!"b") (info : TaskInfo) (n : Str) (h1 : parseTaskInfo (cmdOf name) = .ok info) (h2 : info.name = some n) : n = name := by
  rcases h with rfl | rfl
  all_goals
    rw [show parseTaskInfo (cmdOf _) = .ok { code := some c!"s.py", name := some _ } from rfl] at h1
    injection h1 with h1
    subst h1
    injection h2 with h2
    exact h2.symm

private def m1 : Machine := machine0.add ⟨0, cmdOf c!"a", .task c!"a"⟩
private def m2 : Machine := m1.checked 1 ⟨0, cmdOf c!"a", .task c!"a"⟩ c!"a"

private theorem m2_run (s : Bool) : MRun s machine0 m2 :=
  mrun_trans (.step (.refl _) (.start _ 0 (cmdOf c!"a") c!"a" rfl (by decide +kernel) (name_cmdOf _ (.inl rfl)) (fun _ => rfl)))
    (mrun_check s m1 1 _ _ rfl rfl rfl rfl)

private def m3 (parent : Nat) (name : Str) : Machine := m2.add ⟨parent, cmdOf name, .task name⟩
private def m4 (parent : Nat) (name : Str) : Machine := (m3 parent name).checked 2 ⟨parent, cmdOf name, .task name⟩ name

/-- Non-vacuity: task `a` runs; a second `a` is refused, a `b` is not. -/
example : machine0.Fresh ∧ MRun true machine0 (m4 0 c!"a") ∧ (m4 0 c!"a").phase 1 = .past ∧ (m4 0 c!"a").phase 2 = .refused ∧
    MRun true machine0 (m4 0 c!"b") ∧ (m4 0 c!"b").phase 1 = .past ∧ (m4 0 c!"b").phase 2 = .past := by
  refine ⟨machine0_fresh, ?_, by decide +kernel, by decide +kernel, ?_, by decide +kernel, by decide +kernel⟩
  · exact mrun_trans (.step (m2_run true) (.start _ 0 (cmdOf c!"a") c!"a" rfl (by decide +kernel) (name_cmdOf _ (.inl rfl)) (fun _ => rfl)))
      (mrun_check true (m3 0 c!"a") 2 _ _ rfl rfl rfl rfl)
  · exact mrun_trans (.step (m2_run true) (.start _ 0 (cmdOf c!"b") c!"b" rfl (by decide +kernel) (name_cmdOf _ (.inr rfl)) (fun _ => rfl)))
      (mrun_check true (m3 0 c!"b") 2 _ _ rfl rfl rfl rfl)

/-- A task that starts another one with its own name: both run. -/
theorem c49_child_refuted : MRun false machine0 (m4 1 c!"a") ∧ (m4 1 c!"a").alive 1 = true ∧ (m4 1 c!"a").alive 2 = true ∧
    (m4 1 c!"a").kind 1 = some (.task c!"a") ∧ (m4 1 c!"a").kind 2 = some (.task c!"a") ∧ (m4 1 c!"a").phase 1 = .past ∧ (m4 1 c!"a").phase 2 = .past := by
  refine ⟨?_, by decide +kernel, by decide +kernel, by decide +kernel, by decide +kernel, by decide +kernel, by decide +kernel⟩
  exact mrun_trans (.step (m2_run false) (.start _ 1 (cmdOf c!"a") c!"a" rfl (by decide +kernel) (name_cmdOf _ (.inl rfl)) (fun h => by cases h)))
    (mrun_check false (m3 1 c!"a") 2 _ _ rfl rfl rfl rfl)

/-- `tail -f /tmp/jqtrade_start_task.log`, as a task may start it to follow its log. -/
private def tailCmd : List Str := [c!"tail", c!"-f", c!"/tmp/jqtrade_start_task.log", c!"-n", c!"9"]

private def m5 : Machine := (m2.add ⟨1, tailCmd, .other⟩).add ⟨0, cmdOf c!"a", .task c!"a"⟩
private def m6 : Machine := m5.checked 3 ⟨0, cmdOf c!"a", .task c!"a"⟩ c!"a"

/-- A task with a child whose command line has the two words is not seen: an independent task with the same name runs too. -/
theorem c49_hidden_refuted : MRun false machine0 m6 ∧ m6.alive 1 = true ∧ m6.alive 3 = true ∧
    m6.kind 1 = some (.task c!"a") ∧ m6.kind 3 = some (.task c!"a") ∧ m6.phase 1 = .past ∧ m6.phase 3 = .past := by
  refine ⟨?_, by decide +kernel, by decide +kernel, by decide +kernel, by decide +kernel, by decide +kernel, by decide +kernel⟩
  exact mrun_trans (.step (.step (m2_run false) (.spawn _ 1 tailCmd rfl (fun h => by cases h)))
    (.start _ 0 (cmdOf c!"a") c!"a" rfl (by decide +kernel) (name_cmdOf _ (.inl rfl)) (fun h => by cases h)))
    (mrun_check false m5 3 _ _ rfl rfl rfl rfl)

end Jq
