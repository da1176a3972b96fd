import Verif.Lemmas.Store
import Verif.Lemmas.TradeGate
set_option linter.unusedSectionVars false
/-! # C61: the data file -/
namespace Jq
variable {ν : Type} [JsonNum ν] [LawfulJsonNum ν]

/-- Loading the text that was saved gives the order book back: every order with every field. -/
theorem c61_round_trip (b : Book ν) (text : Str) (hb : DictOk b) (h : dumpBook b = some text) : loadBook text = some b :=
  LawfulStore.load_dump b text hb h

/-- A text cut short anywhere is refused. -/
theorem c61_cut_refused (b : Book ν) (p t : Str) (h : dumpBook b = some (p ++ t)) (ht : t ≠ []) : (loadBook p : Option (Book ν)) = none :=
  LawfulStore.load_cut b p t h ht

/-- The same through the file: what `_save_orders` left on disk is what `_load_orders` reads, on the same day. -/
theorem c61_save_then_load [CellNum ν] (day : Str) (env : Env) (b : Book ν) (fs : Files) (hb : DictOk b) (h : (saveOrders day env b fs).2 = .ok ()) :
    loadOrders day (saveOrders day env b fs).1 = b := by
  obtain ⟨text, h1, h2⟩ := saveOrders_ok h
  simp only [loadOrders, h2]
  rw [LawfulStore.load_dump b text hb h1]

/-- Two different order books are never saved as the same text. -/
theorem c61_injective (b b' : Book ν) (text : Str) (hb : DictOk b) (hb' : DictOk b') (h : dumpBook b = some text) (h' : dumpBook b' = some text) : b = b' := by
  have h1 := c61_round_trip b text hb h
  have h2 := c61_round_trip b' text hb' h'
  rw [h1] at h2
  injection h2

private def demoBook : Book Int :=
  [(c!"7", { code := some c!"600000.XSHG", price := some (-12), amount := some 300, action := some c!"open", orderId := some c!"7", status := some c!"new"
             style := some (.name c!"limit"), createTime := some (.str c!"2024-01-02 09:30:00.000001"), side := some c!"long", filled := some 0, canceled := some 0
             dealBalance := some 0, commission := some 0, errMsg := some c!"price \"too\" high\n中😀\\" }),
   (c!"8", { orderId := some c!"8", confirmId := some [], avgCost := some 5 })]

/-- Non-vacuity: a message with quotes, a line end, Chinese and a character outside the basic plane. -/
example : DictOk demoBook ∧ (dumpBook demoBook).isSome ∧ (dumpBook demoBook).bind loadBook = some demoBook := by
  refine ⟨by unfold DictOk; decide, by decide +kernel, by decide +kernel⟩

/-! ### Texts written otherwise -/

private theorem dget_perm {a b : List (Str × JV)} (hn : (a.map (·.1)).Nodup) (hp : b.Perm a) (k : Str) :
    dget (toDict b) k = dget (toDict a) k := by
  have hb : (b.map (·.1)).Nodup := (hp.map _).nodup_iff.2 hn
  rw [toDict_self hn, toDict_self hb]
  cases ha : dget a k with
  | some v => exact dget_of_mem hb (hp.mem_iff.2 (mem_of_dget ha))
  | none =>
    cases hd : dget b k with
    | none => rfl
    | some v =>
      rw [dget_of_mem (d := a) hn (hp.mem_iff.1 (mem_of_dget hd))] at ha
      cases ha

omit [LawfulJsonNum ν] in
private theorem infoOf_perm {a b : List (Str × JV)} (hn : (a.map (·.1)).Nodup) (hp : b.Perm a) :
    (infoOf (.obj b) : Option (OrderInfo ν)) = infoOf (.obj a) := by
  simp only [infoOf, fieldStr, fieldInt, fieldNum, dget_perm hn hp]

/-- The same orders under the same ids, the fields of each in any order. -/
def SameOrders (as bs : List (Str × JV)) : Prop :=
  AllRel (fun a b => a.1 = b.1 ∧ ∃ fs gs, a.2 = .obj fs ∧ b.2 = .obj gs ∧ gs.Perm fs) as bs

private theorem same_members {b : Book ν} {as bs : List (Str × JV)} (h : bookMembers b = some as) (hs : SameOrders as bs) :
    bs.map (·.1) = dkeys b ∧ bookOf bs = some b := by
  induction b generalizing as bs with
  | nil =>
    simp only [bookMembers, Option.some.injEq] at h
    subst h
    cases hs
    exact ⟨rfl, rfl⟩
  | cons e b ih =>
    obtain ⟨id, o⟩ := e
    simp only [bookMembers] at h
    cases h1 : infoJV o with
    | none => rw [h1] at h; cases h
    | some v =>
      cases h2 : bookMembers b with
      | none => rw [h1, h2] at h; cases h
      | some ms =>
        rw [h1, h2] at h
        simp only [Option.some.injEq] at h
        subst h
        cases hs with
        | cons hr hs =>
          rename_i y bs
          obtain ⟨he, fs, gs, hv, hy, hp⟩ := hr
          obtain ⟨k, w⟩ := y
          simp only at he hv hy
          subst he hv hy
          obtain ⟨i1, i2⟩ := ih h2 hs
          have hn : (fs.map (·.1)).Nodup := by
            simp only [infoJV, Option.map_eq_some_iff, JV.obj.injEq] at h1
            obtain ⟨fs', hc, rfl⟩ := h1
            exact (collect_present hc).1.nodup (by
              have : (infoFields o).map (·.1) = [c!"code", c!"price", c!"amount", c!"action", c!"order_id", c!"status", c!"style",
                c!"create_time", c!"entrust_time", c!"side", c!"confirm_id", c!"filled_amount", c!"canceled_amount", c!"deal_balance",
                c!"avg_cost", c!"commission", c!"err_msg"] := rfl
              rw [this]; decide)
          refine ⟨by simp only [List.map_cons, i1]; rfl, ?_⟩
          simp only [bookOf, infoOf_perm hn hp, infoOf_infoJV h1, i2]

/-- The layout of the file does not matter.  A JSON text (`Spec/JsonText`) that has the same orders under the same ids is loaded as the
same book: with any white space, with any escapes in the strings, with the fields of an order in any order. -/
theorem c61_any_layout (b : Book ν) (hb : DictOk b) (as bs : List (Str × JV)) (h : bookMembers b = some as) (hs : SameOrders as bs)
    (text : Str) (ht : IsJson (.obj bs) text) : loadBook text = some b := by
  obtain ⟨h1, h2⟩ := same_members h hs
  rw [loadBook, (jsonLoads_iff _ _).2 ht]
  simp only
  rw [toDict_self (by rw [h1]; exact hb), h2]

/-- Whatever is not the JSON text of an object is refused. -/
theorem c61_only_json (text : Str) (h : ¬ ∃ ms, IsJson (.obj ms) text) : (loadBook text : Option (Book ν)) = none := by
  rw [loadBook]
  split
  · rename_i ms hms
    exact absurd ⟨ms, (jsonLoads_iff _ _).1 hms⟩ h
  · rfl

/-- What is saved is a JSON text. -/
theorem c61_saved_is_json (b : Book ν) (text : Str) (h : dumpBook b = some text) : ∃ as, bookMembers b = some as ∧ IsJson (.obj as) text := by
  simp only [dumpBook, Option.map_eq_some_iff] at h
  obtain ⟨as, h1, rfl⟩ := h
  exact ⟨as, h1, [], _, [], by simp, space_nil, dump_text _ ((membersOk_iff as).2 (bookMembers_facts h1).2.1), space_nil⟩

/-- A text with line ends, another order of the fields, an escaped slash and letters written as numbers. -/
private def laidOut : Str :=
  c!"{\r\n  \"8\" :\n{ \"order_id\": \"8\", \"entrust_time\": null ,\t\"confirm_id\":\"\", \"err_msg\": \"a\\/\\u0062\\ud83D\\uDE00\", \"avg_cost\":-5 }}\n"

private def laidOutBook : Book Int := [(c!"8", { orderId := some c!"8", confirmId := some [], avgCost := some (-5), errMsg := some c!"a/b😀" })]

set_option maxRecDepth 100000 in
/-- The hypotheses of `c61_any_layout` are met … -/
example : ∃ as bs, DictOk laidOutBook ∧ bookMembers laidOutBook = some as ∧ SameOrders as bs ∧ IsJson (.obj bs) laidOut := by
  refine ⟨_, [(c!"8", .obj [(c!"order_id", .str c!"8"), (c!"entrust_time", .null), (c!"confirm_id", .str []), (c!"err_msg", .str c!"a/b😀"),
    (c!"avg_cost", .num c!"-5")])], by unfold DictOk; decide, rfl, .cons ⟨rfl, _, _, rfl, rfl, ?_⟩ .nil, (jsonLoads_iff _ _).1 rfl⟩
  exact .cons _ (.cons _ (.cons _ (.swap _ _ _)))

/-- … and the text is loaded. -/
example : loadBook laidOut = some laidOutBook := by decide +kernel

/-- Neither a comma after the last member nor a number with a leading zero is accepted. -/
example : (loadBook c!"{\"8\": {\"amount\": 7,}}" : Option (Book Int)) = none ∧ (loadBook c!"{\"8\": {\"amount\": 07}}" : Option (Book Int)) = none ∧
    (loadBook c!"{\"8\": {\"amount\": 7}}" : Option (Book Int)) = some [(c!"8", { amount := some 7 })] := by decide +kernel

end Jq
