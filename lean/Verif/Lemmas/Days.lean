import Verif.Spec.Days
import Verif.Lemmas.GateSetup
set_option linter.unusedSectionVars false
/-! Lemmas for C98. -/
namespace Jq
variable {ν : Type}

theorem SameDay.refl (d : Str) (fs : Files) : SameDay d fs fs := fun _ _ => rfl

theorem SameDay.symm {d : Str} {fs fs' : Files} (h : SameDay d fs fs') : SameDay d fs' fs := fun f hf => (h f hf).symm

theorem SameDay.trans {d : Str} {fs gs hs : Files} (h : SameDay d fs gs) (h' : SameDay d gs hs) : SameDay d fs hs :=
  fun f hf => (h' f hf).trans (h f hf)

theorem SameDay.set {d : Str} {fs fs' : Files} (h : SameDay d fs fs') (f : FileId) (c : Option Str) : SameDay d (fs.set f c) (fs'.set f c) := by
  intro g hg
  simp only [Files.set]
  split
  · rfl
  · exact h g hg

theorem set_otherDay {d : Str} (fs : Files) {f : FileId} (c : Option Str) (hf : f.day ≠ d) : SameDay d fs (fs.set f c) := by
  intro g hg
  simp only [Files.set]
  rw [if_neg]
  rintro rfl
  exact hf hg

theorem appendLine_sameDay {d : Str} {fs fs' : Files} (h : SameDay d fs fs') (win : Bool) (fault : WriteFault) (f : FileId) (hf : f.day = d)
    (header line : Str) :
    SameDay d (appendLine win fault f header line fs).1 (appendLine win fault f header line fs').1 ∧
      (appendLine win fault f header line fs).2 = (appendLine win fault f header line fs').2 := by
  simp only [appendLine, h f hf]
  cases fault with
  | «open» e => exact ⟨h, rfl⟩
  | _ => exact ⟨h.set _ _, rfl⟩

theorem appendLine_otherDay {d : Str} (fs : Files) (win : Bool) (fault : WriteFault) (f : FileId) (hf : f.day ≠ d) (header line : Str) :
    SameDay d fs (appendLine win fault f header line fs).1 := by
  simp only [appendLine]
  cases fault with
  | «open» e => exact SameDay.refl _ _
  | _ => exact set_otherDay _ _ hf

section
variable [Store ν]

theorem saveOrders_sameDay {d : Str} {fs fs' : Files} (h : SameDay d fs fs') (env : Env) (day : Str) (b : Book ν) :
    SameDay d (saveOrders day env b fs).1 (saveOrders day env b fs').1 ∧ (saveOrders day env b fs).2 = (saveOrders day env b fs').2 := by
  simp only [saveOrders]
  cases env.save <;> simp only <;> (try exact ⟨h, rfl⟩) <;> cases Store.dump b <;>
    first
      | exact ⟨h, trivial⟩
      | exact ⟨h.set _ _, rfl⟩
      | exact ⟨(h.set _ _).set _ _, rfl⟩

theorem saveOrders_otherDay {d : Str} (fs : Files) (env : Env) (day : Str) (hd : day ≠ d) (b : Book ν) :
    SameDay d fs (saveOrders day env b fs).1 := by
  have h1 : (FileId.data day).day ≠ d := hd
  have h2 : (FileId.tmp day).day ≠ d := hd
  simp only [saveOrders]
  cases env.save <;> simp only <;> (try exact SameDay.refl _ _) <;> cases Store.dump b <;> simp only <;>
    first
      | exact set_otherDay _ _ h2
      | exact (set_otherDay _ _ h2).trans (set_otherDay _ _ h1)
end

variable [CellNum ν] [Store ν]

/-- The environment of a day. -/
structure EnvOn (d : Str) (env : Env) : Prop where
  day : env.day = d
  others : ∀ fs fs', SameDay d fs fs' → SameDay d (env.ext fs) (env.ext fs')
  quiet : ∀ fs f, f.day ≠ d → env.ext fs f = fs f

/-- Gates of the day that differ only in the files of other days. -/
structure DayGates (d : Str) (g h : AXG ν) : Prop where
  day : g.ax.conf.dataDay = d
  env : ∀ n, EnvOn d (g.env n)
  files : SameDay d g.ax.files h.ax.files
  rest : h = { g with ax := { g.ax with files := h.ax.files } }

omit [CellNum ν] in
theorem remember_sameDay {d : Str} (env : Env) (o : Order ν) (s : AX ν) {fs : Files} (h : SameDay d s.files fs) :
    ∃ fs', SameDay d (s.remember env o).1.files fs' ∧ (s.remember env o).1.conf = s.conf ∧
      ({ s with files := fs } : AX ν).remember env o = ({ (s.remember env o).1 with files := fs' }, (s.remember env o).2) := by
  simp only [AX.remember]
  cases o.json with
  | error e => exact ⟨fs, h, rfl, rfl⟩
  | ok info =>
    obtain ⟨h1, h2⟩ := saveOrders_sameDay h env s.conf.dataDay (dset s.book o.orderId info)
    exact ⟨_, h1, rfl, by simp only [h2]⟩

theorem order_sameDay {d : Str} (env : Env) (hd : env.day = d) (o : Order ν) (s : AX ν) {fs : Files} (h : SameDay d s.files fs) :
    ∃ fs', SameDay d (s.order env o).1.files fs' ∧ (s.order env o).1.conf = s.conf ∧
      ({ s with files := fs } : AX ν).order env o = ({ (s.order env o).1 with files := fs' }, (s.order env o).2) := by
  simp only [AX.order]
  cases orderFields s.conf env.now o with
  | error e => exact ⟨fs, h, rfl, rfl⟩
  | ok items =>
    simp only
    have ha := appendLine_sameDay h s.conf.win env.write (.orders env.day) hd orderHeader (joinWith c!"," items ++ linesep s.conf.win)
    rcases e1 : appendLine s.conf.win env.write (.orders env.day) orderHeader (joinWith c!"," items ++ linesep s.conf.win) s.files with ⟨f1, r1⟩
    rcases e2 : appendLine s.conf.win env.write (.orders env.day) orderHeader (joinWith c!"," items ++ linesep s.conf.win) fs with ⟨f2, r2⟩
    rw [e1, e2] at ha
    obtain ⟨ha1, ha2⟩ := ha
    simp only at ha1 ha2
    subst ha2
    cases r1 with
    | error e => exact ⟨f2, ha1, rfl, rfl⟩
    | ok u => exact remember_sameDay env o { s with files := f1 } ha1

theorem cancel_sameDay {d : Str} (env : Env) (hd : env.day = d) (id : Str) (s : AX ν) {fs : Files} (h : SameDay d s.files fs) :
    ∃ fs', SameDay d (s.cancel env id).1.files fs' ∧ (s.cancel env id).1.conf = s.conf ∧
      ({ s with files := fs } : AX ν).cancel env id = ({ (s.cancel env id).1 with files := fs' }, (s.cancel env id).2) := by
  have ha := appendLine_sameDay h s.conf.win env.write (.cancels env.day) hd cancelHeader
    (joinWith c!"," [env.now.hmsf, id] ++ linesep s.conf.win)
  exact ⟨_, ha.1, rfl, by simp only [AX.cancel, ha.2]⟩

theorem syncOrders_sameDay {d : Str} (env : Env) (hd : env.day = d) (s : AX ν) {fs : Files} (h : SameDay d s.files fs) :
    ∃ fs', SameDay d (s.syncOrders env).1.files fs' ∧ (s.syncOrders env).1.conf = s.conf ∧
      ({ s with files := fs } : AX ν).syncOrders env = ({ (s.syncOrders env).1 with files := fs' }, (s.syncOrders env).2) := by
  have hu : fs (.updates env.day) = s.files (.updates env.day) := h _ hd
  have hr : fs (.results env.day) = s.files (.results env.day) := h _ hd
  simp only [AX.syncOrders, hu, hr]
  split
  · split
    · exact ⟨fs, h, rfl, rfl⟩
    · rename_i t _
      obtain ⟨h1, h2⟩ := saveOrders_sameDay h env s.conf.dataDay t.book
      rcases e1 : saveOrders s.conf.dataDay env t.book s.files with ⟨f1, r1⟩
      rcases e2 : saveOrders s.conf.dataDay env t.book fs with ⟨f2, r2⟩
      rw [e1, e2] at h1 h2
      simp only at h1 h2
      subst h2
      cases r1 <;> exact ⟨f2, h1, rfl, rfl⟩
  · exact ⟨fs, h, rfl, rfl⟩

theorem DayGates.sim (d : Str) : GateSim (axGate ν) (axGate ν) (DayGates d) := by
  have key : ∀ g h : AXG ν, DayGates d g h → ∃ fs, SameDay d g.ready.files fs ∧ h.ready = { g.ready with files := fs } ∧ h.cur = g.cur ∧
      h.env = g.env ∧ h.n = g.n := by
    intro g h H
    obtain ⟨h1, h2, h3, h4⟩ := H
    generalize h.ax.files = fs at h3 h4
    subst h4
    exact ⟨_, (h2 g.n).others _ _ h3, rfl, rfl, rfl, rfl⟩
  have next : ∀ g h : AXG ν, DayGates d g h → ∀ s t : AX ν, s.conf = g.ax.conf → ∀ fs, SameDay d s.files fs → t = { s with files := fs } →
      DayGates d (g.next s) (h.next t) := by
    intro g h H s t hc fs hfs ht
    subst ht
    obtain ⟨h1, h2, h3, h4⟩ := H
    rw [h4]
    exact ⟨by simp only [AXG.next, hc, h1], h2, hfs, rfl⟩
  refine ⟨?_, ?_, ?_, ?_⟩
  · intro g h o H
    obtain ⟨fs, e1, e2, e3, _⟩ := key g h H
    obtain ⟨fs', q1, q2, q3⟩ := order_sameDay g.cur (H.env g.n).day o g.ready e1
    simp only [axGate, e3, e2, q3]
    exact ⟨next g h H _ _ q2 _ q1 rfl, trivial⟩
  · intro g h id H
    obtain ⟨fs, e1, e2, e3, _⟩ := key g h H
    obtain ⟨fs', q1, q2, q3⟩ := cancel_sameDay g.cur (H.env g.n).day id g.ready e1
    simp only [axGate, e3, e2, q3]
    exact ⟨next g h H _ _ q2 _ q1 rfl, trivial⟩
  · intro g h H
    obtain ⟨fs, e1, e2, e3, _⟩ := key g h H
    simp only [axGate, e3, e2]
    exact ⟨next g h H _ _ rfl _ e1 rfl, rfl⟩
  · intro g h H
    obtain ⟨fs, e1, e2, e3, _⟩ := key g h H
    obtain ⟨fs', q1, q2, q3⟩ := syncOrders_sameDay g.cur (H.env g.n).day g.ready e1
    simp only [axGate, e3, e2, q3]
    exact ⟨next g h H _ _ q2 _ q1 rfl, trivial⟩

theorem answers_sim {γ γ' : Type} {G : Gate γ ν} {G' : Gate γ' ν} {R : γ → γ' → Prop} (H : GateSim G G' R) (ops : List (AOp ν)) (a : Acct γ ν) (h : γ')
    (hR : R a.gate h) : (a.regate h).answers G' ops = a.answers G ops := by
  induction ops generalizing a h with
  | nil => rfl
  | cons op ops ih =>
    obtain ⟨h1, r1, e1⟩ := step_sim H a h hR op
    simp only [Acct.answers, e1, ih _ _ r1]

theorem Life.On.env {d : Str} {l : Life ν} (h : l.On d) (n : Nat) : EnvOn d (l.env n) := ⟨h.ended n, h.others n, h.quiet n⟩

/-- The same day, with other files of other days. -/
theorem begin_sim {d : Str} {l : Life ν} (hl : l.On d) {fs fs' : Files} (h : SameDay d fs fs') :
    ∃ g, DayGates d (l.begin fs).gate g ∧ l.begin fs' = (l.begin fs).regate g := by
  refine ⟨⟨AX.setup l.conf fs', l.env, 0⟩, ⟨hl.started, hl.env, h, ?_⟩, rfl⟩
  have : (loadOrders l.conf.dataDay fs' : Book ν) = loadOrders l.conf.dataDay fs := by
    simp only [loadOrders, h (.data l.conf.dataDay) hl.started]
  simp only [Life.begin, Acct.init, AX.setup, this]

theorem life_sim {d : Str} {l : Life ν} (hl : l.On d) {fs fs' : Files} (h : SameDay d fs fs') :
    SameAccount ((l.begin fs).run (axGate ν) l.ops) ((l.begin fs').run (axGate ν) l.ops) ∧
    (l.begin fs').answers (axGate ν) l.ops = (l.begin fs).answers (axGate ν) l.ops ∧
    SameDay d ((l.begin fs).run (axGate ν) l.ops).gate.ax.files ((l.begin fs').run (axGate ν) l.ops).gate.ax.files := by
  obtain ⟨g, hg, e⟩ := begin_sim hl h
  obtain ⟨g', hg', e'⟩ := run_sim (DayGates.sim d) l.ops (l.begin fs) g hg
  rw [e, e', answers_sim (DayGates.sim d) l.ops (l.begin fs) g hg]
  refine ⟨⟨rfl, ?_, ?_⟩, rfl, hg'.files⟩
  · have := congrArg (fun x : AXG ν => x.ax.book) hg'.rest
    exact this
  · have := congrArg (fun x : AXG ν => x.ax.conf) hg'.rest
    exact this

/-! ## Other days -/

/-- A gate of another day that has left the files of the day `d` as they were. -/
structure Away (d e : Str) (fs : Files) (g : AXG ν) : Prop where
  day : g.ax.conf.dataDay = e
  env : ∀ n, EnvOn e (g.env n)
  files : SameDay d fs g.ax.files

theorem order_otherDay {d : Str} (env : Env) (hd : env.day ≠ d) (o : Order ν) (s : AX ν) (hs : s.conf.dataDay ≠ d) :
    SameDay d s.files (s.order env o).1.files ∧ (s.order env o).1.conf = s.conf := by
  simp only [AX.order]
  cases orderFields s.conf env.now o with
  | error e => exact ⟨SameDay.refl _ _, rfl⟩
  | ok items =>
    simp only
    have ha := appendLine_otherDay (d := d) s.files s.conf.win env.write (.orders env.day) hd orderHeader
      (joinWith c!"," items ++ linesep s.conf.win)
    rcases e1 : appendLine s.conf.win env.write (.orders env.day) orderHeader (joinWith c!"," items ++ linesep s.conf.win) s.files with ⟨f1, r1⟩
    rw [e1] at ha
    cases r1 with
    | error e => exact ⟨ha, rfl⟩
    | ok u =>
      simp only [AX.remember]
      cases o.json with
      | error e => exact ⟨ha, rfl⟩
      | ok info => exact ⟨ha.trans (saveOrders_otherDay _ _ _ hs _), rfl⟩

theorem syncOrders_otherDay {d : Str} (env : Env) (s : AX ν) (hs : s.conf.dataDay ≠ d) :
    SameDay d s.files (s.syncOrders env).1.files ∧ (s.syncOrders env).1.conf = s.conf := by
  simp only [AX.syncOrders]
  split
  · split
    · exact ⟨SameDay.refl _ _, rfl⟩
    · rename_i t _
      have h1 := saveOrders_otherDay s.files env s.conf.dataDay hs t.book
      rcases e1 : saveOrders s.conf.dataDay env t.book s.files with ⟨f1, r1⟩
      rw [e1] at h1
      cases r1 <;> exact ⟨h1, rfl⟩
  · exact ⟨SameDay.refl _ _, rfl⟩

theorem Away.sim {d e : Str} (hde : e ≠ d) (fs : Files) : GateSim (axGate ν) (axGate ν) (fun g h => h = g ∧ Away d e fs g) := by
  have key : ∀ g : AXG ν, Away d e fs g → SameDay d fs g.ready.files ∧ g.ready.conf.dataDay ≠ d ∧ g.cur.day ≠ d := by
    intro g H
    refine ⟨H.files.trans ?_, by rw [show g.ready.conf = g.ax.conf from rfl, H.day]; exact hde, by rw [AXG.cur, (H.env g.n).day]; exact hde⟩
    intro f hf
    exact (H.env g.n).quiet _ f (by rw [hf]; exact hde.symm)
  have next : ∀ g : AXG ν, Away d e fs g → ∀ s : AX ν, s.conf = g.ax.conf → SameDay d fs s.files → Away d e fs (g.next s) := by
    intro g H s hc hs
    exact ⟨by simp only [AXG.next, hc, H.day], H.env, hs⟩
  refine ⟨?_, ?_, ?_, ?_⟩
  · rintro g h o ⟨rfl, H⟩
    obtain ⟨k1, k2, k3⟩ := key h H
    obtain ⟨q1, q2⟩ := order_otherDay h.cur k3 o h.ready k2
    exact ⟨⟨rfl, next h H _ q2 (k1.trans q1)⟩, rfl⟩
  · rintro g h id ⟨rfl, H⟩
    obtain ⟨k1, k2, k3⟩ := key h H
    exact ⟨⟨rfl, next h H _ rfl (k1.trans (appendLine_otherDay (d := d) _ _ _ (.cancels h.cur.day) k3 _ _))⟩, rfl⟩
  · rintro g h ⟨rfl, H⟩
    obtain ⟨k1, k2, k3⟩ := key h H
    exact ⟨⟨rfl, next h H _ rfl k1⟩, rfl⟩
  · rintro g h ⟨rfl, H⟩
    obtain ⟨k1, k2, k3⟩ := key h H
    obtain ⟨q1, q2⟩ := syncOrders_otherDay h.cur h.ready k2
    exact ⟨⟨rfl, next h H _ q2 (k1.trans q1)⟩, rfl⟩

theorem life_away {d e : Str} (hde : e ≠ d) {l : Life ν} (hl : l.On e) (fs : Files) :
    SameDay d fs ((l.begin fs).run (axGate ν) l.ops).gate.ax.files := by
  obtain ⟨g', hg', _⟩ := run_sim (Away.sim hde fs) l.ops (l.begin fs) (l.begin fs).gate ⟨rfl, hl.started, hl.env, SameDay.refl _ _⟩
  exact hg'.2.files

end Jq
