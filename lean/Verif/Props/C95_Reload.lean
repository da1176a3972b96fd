import Verif.Props.C82_Encoding
import Verif.Props.C42_Restart
import Verif.Lemmas.Flow
import Verif.Model.Store
/-! # C95: a restart with the right encoding shows what was skipped -/
namespace Jq
variable {ν : Type} [CellNum ν] [Store ν]

omit [Store ν] in
/-- The first synchronisation of a gate that has just been set up (`trade_gate.py:224-228`, `499-512`), as text. -/
private theorem first_sync (Dres Dupd : Codec) (N : Nat) (hN : 0 < N) (rs us : Encoded) (hr : rs.In Dres) (hu : us.In Dupd) (fuel : Nat)
    (hfr : rs.length < fuel) (hfu : us.length < fuel) (b : Book ν) :
    ∃ s, pollBothBytes Dres Dupd N true fuel rs.bytes us.bytes ⟨b, ⟨0, false⟩, ⟨0, false⟩⟩ = some (s, .ok ()) ∧
      s.book = (pollBoth true rs.text us.text ⟨b, 0, 0⟩).1.book := by
  have h := c82_both_files_partial (ν := ν) Dres Dupd N hN rs us hr hu true fuel hfr hfu ⟨b, 0, 0⟩ (Nat.zero_le _) (Nat.zero_le _)
  have h0 : ∀ gs : Encoded, gs.pos 0 = ⟨0, false⟩ := fun gs => by cases gs <;> rfl
  simp only [h0] at h
  rw [pollBoth_ign] at h ⊢
  exact ⟨_, h, rfl⟩

/-- Whatever was skipped or lost before the restart: if the broker's files can be decoded with the encodings that the restarted gate reads
them with, its first synchronisation succeeds and shows every order of the data file as its last readable update says. -/
theorem c95_updates_reloaded_partial (Dres Dupd : Codec) (N : Nat) (hN : 0 < N) (rs us : Encoded) (hr : rs.In Dres) (hu : us.In Dupd) (fuel : Nat)
    (hfr : rs.length < fuel) (hfu : us.length < fuel) (conf : AXConf) (fs : Files)
    (id : Str) (o : OrderInfo ν) (ho : dget (AX.setup (ν := ν) conf fs).book id = some o)
    (before after : List (Str × Nat)) (raw : Str) (n : Nat) (hc : rawLines us.text = before ++ (raw, n) :: after)
    (items : List Str) (l : OrderLine) (hl1 : lineKind 20 raw = .fields items) (hl2 : OrderLine.ofItems items = .ok l)
    (hl3 : l.custBatchNo = id) (hp : l.Parsable ν)
    (hns : ∀ x ∈ before, lineKind 20 x.1 ≠ .stop) (hlast : ∀ x ∈ after, ¬ IsUpdateOf id x.1) :
    ∃ s o', pollBothBytes Dres Dupd N true fuel rs.bytes us.bytes ⟨(AX.setup (ν := ν) conf fs).book, ⟨0, false⟩, ⟨0, false⟩⟩ = some (s, .ok ()) ∧
      dget s.book id = some o' ∧ o'.SaysLine l ∧ SameRequest o o' := by
  obtain ⟨s, h, hb⟩ := first_sync Dres Dupd N hN rs us hr hu fuel hfr hfu (AX.setup (ν := ν) conf fs).book
  obtain ⟨o', h1, h2, h3⟩ := c42_restart_shows_update_refuted ⟨⟨(AX.setup conf fs).book, 0, 0⟩, rs.text, us.text⟩ id o ho before after raw n hc items l
    hl1 hl2 hl3 hp hns hlast
  exact ⟨s, o', h, by rw [hb]; exact h1, h2, h3⟩

omit [Store ν] in
/-- The results change the status and the message only. -/
private theorem results_only (id : Str) (ls : List (Str × Nat)) (o : OrderInfo ν) :
    ∃ st em, linesView 6 resView id ls o = { o with status := st, errMsg := em } := by
  induction ls generalizing o with
  | nil => exact ⟨o.status, o.errMsg, rfl⟩
  | cons l ls ih =>
    rw [linesView_cons]
    obtain ⟨st, em, h⟩ := ih (lineView 6 resView id l o)
    rw [h]
    refine ⟨st, em, ?_⟩
    unfold lineView
    cases lineKind 6 l.1 with
    | stop => rfl
    | header => rfl
    | fields items =>
      simp only [resView]
      split
      · split <;> rfl
      · rfl

/-- An order that the result file refuses and no update is about: rejected, after the restart, with the message of a refusal. -/
theorem c95_refusals_reloaded_partial (Dres Dupd : Codec) (N : Nat) (hN : 0 < N) (rs us : Encoded) (hr : rs.In Dres) (hu : us.In Dupd) (fuel : Nat)
    (hfr : rs.length < fuel) (hfu : us.length < fuel) (conf : AXConf) (fs : Files)
    (id : Str) (o : OrderInfo ν) (ho : dget (AX.setup (ν := ν) conf fs).book id = some o)
    (before after : List (Str × Nat)) (raw : Str) (n : Nat) (hc : rawLines rs.text = before ++ (raw, n) :: after)
    (t c m : Str) (hraw : lineKind 6 raw = .fields [t, c!"1", id, c!"1", c, m]) (hns : ∀ x ∈ before, lineKind 6 x.1 ≠ .stop)
    (hlast : ∀ x ∈ after, ¬ Refuses id x) (hno : ¬ UpdatedIn id us.text) :
    ∃ s, pollBothBytes Dres Dupd N true fuel rs.bytes us.bytes ⟨(AX.setup (ν := ν) conf fs).book, ⟨0, false⟩, ⟨0, false⟩⟩ = some (s, .ok ()) ∧
      dget s.book id = some { o with status := some c!"rejected", errMsg := some m } := by
  obtain ⟨s, h, hb⟩ := first_sync Dres Dupd N hN rs us hr hu fuel hfr hfu (AX.setup (ν := ν) conf fs).book
  refine ⟨s, h, ?_⟩
  rw [hb, pollBoth_ign]
  simp only
  obtain ⟨_, _, _, _, _, _, a5⟩ := poll_absorbed (I := fun _ => True) (resultLine_view (ν := ν)) rs.text (AX.setup (ν := ν) conf fs).book 0 (absorbed_zero _ _)
  have h1 := a5 id trivial
  rw [ho, hc, List.takeWhile_append_of_pos (by intro x hx; simpa [notStop] using hns x hx), List.takeWhile_cons,
    if_pos (by simp [notStop, hraw]), Option.map_some, linesView_append, linesView_cons, linesView_trivial] at h1
  · obtain ⟨C, P, b1, _, _, b4, _⟩ := poll_absorbed (I := fun _ => True) (cols := 20) (updateLine_view (ν := ν)) us.text
      (pollResults true rs.text (AX.setup (ν := ν) conf fs).book 0).1.1 0 (absorbed_zero _ _)
    have h2 := b4 id trivial
    rw [show dget (pollResults true rs.text (AX.setup (ν := ν) conf fs).book 0).1.1 id = _ from h1, Option.map_some, linesView_trivial] at h2
    · refine h2.trans ?_
      obtain ⟨st, em, e⟩ := results_only id before o
      rw [e]
      simp [lineView, hraw, resView]
    · intro x hx o
      unfold lineView
      cases hk : lineKind 20 x.1 with
      | stop => rfl
      | header => rfl
      | fields its =>
        simp only [updView]
        cases hof : OrderLine.ofItems its with
        | error e => rfl
        | ok ln' =>
          simp only
          split
          · rename_i hid
            exact absurd ⟨x, by rw [b1]; simp [hx], its, ln', hk, hof, hid⟩ hno
          · rfl
  · intro x hx o
    have hx' : x ∈ after := (List.takeWhile_sublist _).subset hx
    unfold lineView
    cases hk : lineKind 6 x.1 with
    | stop => rfl
    | header => rfl
    | fields items =>
      simp only [resView]
      split
      · rename_i u rt cb su ec em
        split
        · rename_i hh
          obtain ⟨rfl, rfl, rfl⟩ := hh
          exact absurd ⟨_, _, _, hk⟩ (hlast x hx')
        · rfl
      · rfl

omit [Store ν] in
/-- Not so if the result file (of at most one chunk) cannot be decoded with the encoding of the locale, which no option sets: every restart
reads it in vain, the orders are shown as if it were empty. -/
theorem c95_results_lost_refuted (Dres Dupd : Codec) (N : Nat) (gs us : Encoded) (hg : gs.In Dres) (g : Bytes) (hw : IsWrong Dres g) (rest : Bytes)
    (hN : (gs.bytes ++ g ++ rest).length ≤ N) (hu : us.In Dupd) (fuel : Nat) (hfu : us.length < fuel + 2) (hN0 : 0 < N) (b : Book ν) :
    ∃ s, pollBothBytes Dres Dupd N true (fuel + 2) (gs.bytes ++ g ++ rest) us.bytes ⟨b, ⟨0, false⟩, ⟨0, false⟩⟩ = some (s, .ok ()) ∧
      s.book = (pollBoth true [] us.text ⟨b, 0, 0⟩).1.book := by
  have h1 := c82_chunk_lost_refuted (ν := ν) Dres N [] gs hg g hw rest hN 6 resultLine fuel b
  simp only [List.nil_append, List.length_nil] at h1
  have h2 := c82_same_as_text_partial (ν := ν) Dupd N hN0 us hu 20 updateLine true (fuel + 2) hfu b 0 (Nat.zero_le _)
  have h0 : us.pos 0 = ⟨0, false⟩ := by cases us <;> rfl
  rw [h0] at h2
  have h3 := pollFile_ign_not_raised (cols := 20) (f := updateLine (ν := ν)) us.text b 0
  have h4 : (pollResults true [] b 0).1.1 = b := rfl
  simp only [pollBothBytes, h1, h2]
  rw [pollBoth_ign]
  simp only [h4, pollUpdates]
  cases he : (pollFile 20 updateLine true us.text b 0).2 with
  | raised e => exact absurd he (h3 e)
  | eof => exact ⟨_, rfl, rfl⟩
  | stopped => exact ⟨_, rfl, rfl⟩

/-- The data file of the examples: the order `b1` as it was placed. -/
private def savedDay : Files := fun f => if f = .data c!"20240102" then (Store.dump [(c!"b1", exOrder)]) else none

private def dayConf : AXConf := { acctNo := some c!"10", dataDay := c!"20240102" }

/-- One character of two bytes, as a table of GBK. -/
private def pairTable : UInt8 → UInt8 → Option Char := fun a b => if a = 0xd6 ∧ b = 0xd0 then some '中' else none

/-- The update file in GBK, with its characters. -/
private def gbkText : Encoded :=
  (fileText [exUpdate c!"b1" c!"2" c!"100"]).map (fun c => ([UInt8.ofNat c.toNat], c)) ++
  (c!"93002,20240102,093002,UM0,10,600000.SH,1,5,100,9,0,0,0,0,0,78,,b2,").map (fun c => ([UInt8.ofNat c.toNat], c)) ++ [([0xd6, 0xd0], '中')] ++
  c!",c1\n".map (fun c => ([UInt8.ofNat c.toNat], c))

example : gbkText.bytes = gbkUpdates ∧ (∀ x ∈ gbkText, x.1.length = 1 → (gbk pairTable).tok x.1 = .char x.2) := by decide +kernel

/-- Read as UTF-8 the update is lost with the line that cannot be decoded; after the restart with GBK the order is filled. -/
example :
    (pollBothBytes utf8 utf8 8192 true 300 [] gbkUpdates ⟨(AX.setup (ν := Int) dayConf savedDay).book, ⟨0, false⟩, ⟨0, false⟩⟩).map
      (fun r => r.1.book.map (fun e => (e.1, e.2.status))) = some [(c!"b1", some c!"new")] ∧
    (pollBothBytes utf8 (gbk pairTable) 8192 true 300 [] gbkUpdates ⟨(AX.setup (ν := Int) dayConf savedDay).book, ⟨0, false⟩, ⟨0, false⟩⟩).map
      (fun r => r.1.book.map (fun e => (e.1, e.2.status))) = some [(c!"b1", some c!"filled")] := by decide +kernel

/-- A refusal that can be decoded is shown after the restart; one in GBK is not. -/
example :
    (pollBothBytes utf8 (gbk pairTable) 8192 true 300 (asciiBytes c!"93002,1,b1,1,77,no funds\n") [] ⟨(AX.setup (ν := Int) dayConf savedDay).book, ⟨0, false⟩, ⟨0, false⟩⟩).map
      (fun r => r.1.book.map (fun e => (e.1, e.2.status, e.2.errMsg))) = some [(c!"b1", some c!"rejected", some c!"no funds")] ∧
    (pollBothBytes utf8 (gbk pairTable) 8192 true 300 gbkResults [] ⟨(AX.setup (ν := Int) dayConf savedDay).book, ⟨0, false⟩, ⟨0, false⟩⟩).map
      (fun r => r.1.book.map (fun e => (e.1, e.2.status))) = some [(c!"b1", some c!"new")] := by decide +kernel

end Jq
