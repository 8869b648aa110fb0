/- C114: what `uechosearch -v` and `uechobench -v` print. -/
import Verif.Lemmas.Verbose
import Verif.Props.Session

namespace Uecho
open Spec Tools

theorem short_fits (s : Store) (ip : String) (k c : Int) (hc : 0 ≤ c ∧ c < 256) (h : s.Short ip k c) : s.Fits [.read ip k [c]] := by
  have hp : ∀ (e : Int) (a b : Int) (d : Bytes), d.length ≤ 255 → e = 0x62 ∨ e = 0x72 ∨ e = 0x52 → FitsDatagram { seoj := a, deoj := b, esv := e, props := [{ code := c, data := d }] } := by
    intro e a b d hd he
    refine ⟨⟨by show 0 ≤ e ∧ e < 256; omega, ?_⟩, ?_⟩
    · show if TwoSections e then _ else _
      rw [if_neg (by unfold TwoSections; omega)]
      refine ⟨(by decide : 1 < 256), ?_⟩
      intro p hp
      rw [List.mem_singleton.mp hp]
      exact ⟨hc.1, hc.2, (by omega : d.length < 256)⟩
    · rw [encode_length]
      unfold encBody
      show _ + (if TwoSections e then _ else _ : Bytes).length ≤ _
      rw [if_neg (by unfold TwoSections; omega)]
      simp [encSection, encItems, encItem]
      omega
  refine ⟨hp 0x62 0 k [] (by decide) (by decide), ?_, ?_, trivial, trivial⟩
  · show FitsDatagram { seoj := k, deoj := 0x0EF001, esv := if s.allRead ip k [c] then 0x72 else 0x52, props := s.got ip k [c] }
    exact hp _ k 0x0EF001 _ h.1 (by split <;> simp)
  · intro he hl
    have hr : isReadable (s ip k c) = true := by
      by_contra hr
      have : s.allRead ip k [c] = false := by unfold Store.allRead; simpa using hr
      have : (s.answer (.read ip k [c])).esv = 0x52 := by unfold Store.answer; simp [this]
      rw [this] at he
      cases he
    unfold instanceListOf at hl
    have hpp : (s.answer (.read ip k [c])).props = [{ code := c, data := s.data ip k c }] := rfl
    rw [hpp] at hl
    simp only [] at hl
    split at hl
    · rename_i hcc
      have := h.2 hcc hr
      cases hd : s.data ip k c with
      | nil => exact this hd
      | cons x xs =>
        rw [hd] at hl
        simp only [] at hl
        split at hl <;> cases hl
    · cases hl

theorem mandatory_range {k : Int} {x : Int × Nat} (h : x ∈ mandatoryReads k) : 0 ≤ x.1 ∧ x.1 < 256 := by
  have hord : ValidOrder List.dedup := fun l => ⟨l.nodup_dedup, fun _ => List.mem_dedup⟩
  unfold mandatoryReads at h
  have h1 := List.fst_mem_of_mem_zipIdx (List.mem_filter.mp h).1
  have h2 := device_keys hord (.int k) k rfl
  have h3 := (dev_shape hord k (k / 65536 % 256) (k / 256 % 256)).2.2.2.2.2.2.1
  have e := dev_eq hord (.int k) k rfl
  rw [← e] at h3
  unfold groupOf kindOf at h1
  rw [← h2] at h1
  obtain ⟨kp, hkp, e⟩ := List.mem_map.mp h1
  have := h3 kp hkp
  omega

theorem answering {ord : List Int → List Int} (hord : ValidOrder ord) {c : Ctl} {ops : List CtlOp} (h : CtlReach ord c ops) (k : Side) (H : Machines)
    (hs : Complete ord k c H) (r : Remote) (hr : r ∈ c.nodes) : Answering ord (fun ip obj => Serves ord k c H ip obj) H.store r := by
  obtain ⟨h1, h2, h3⟩ := found_node hord h r hr
  have hi := (reach_knows hord h).1.nodes _ _ h2
  refine ⟨h1, h3, ?_⟩
  intro o ho
  obtain ⟨-, h5⟩ := hs r hr
  obtain ⟨a1, a2⟩ := h5 o ho
  obtain ⟨ko, hko, rfl⟩ := List.mem_map.mp ho
  have hg := Dict.get?_of_mem r.node.objects ko.1 ko.2 hi.keys hko
  have hc := (hi.objs _ _ hg).2
  refine ⟨a1, a1.code.1, a1.code.2, ?_, fun x hx => short_fits _ _ _ _ (mandatory_range hx) (a2 x hx)⟩
  rw [hc]
  exact found_standard hord h _ _ h2 _ _ hg

theorem prints_all {ord : List Int → List Int} {k : Side} {T : String → Int → Prop} {s : Store} {p : Prog} {ls : List (List Char)} (h : Prints ord k T s p ls .done)
    (c : Ctl) (H : Machines) (hr : Ready ord k T s c H) :
    (∃ c' H', Runs ord k c H p c' H' ls) ∧ ∀ c' H' out, Runs ord k c H p c' H' out → out = ls := by
  obtain ⟨h1, c1, H1, -, h2⟩ := h c H hr
  refine ⟨⟨c1, H1, by simpa using h2 _ _ _ (.done c1 H1)⟩, ?_⟩
  intro c' H' out ho
  obtain ⟨c2, H2, out2, -, h3, rfl⟩ := h1 c' H' out ho
  clear ho h1 h2
  generalize hd : Prog.done = q at h3
  have : out2 = [] := by
    induction h3 with
    | done => rfl
    | meanwhile _ _ ih => exact ih hd
    | print => cases hd
    | post => cases hd
    | propSend => cases hd
    | propPost => cases hd
  rw [this, List.append_nil]

/-- C114. uechosearch -v, run by a controller with any history over machines that answer: the lines printed are, for each found node, its address and its manufacturer, and, for each of its
objects, the name, and the code, name and current data of every property the standard requires to be readable. Whatever else happens meanwhile does not change that, as long as the machines keep
their data. -/
theorem C114_search {ord : List Int → List Int} (hord : ValidOrder ord) {c : Ctl} {ops : List CtlOp} (h : CtlReach ord c ops) (k : Side) (H : Machines)
    (hs : Complete ord k c H) :
    (∃ c' H', Runs ord k c H (searchVerbose c) c' H' (blocks (c.nodes.map fun r => searchBlock H.store (listing r)))) ∧
    ∀ c' H' out, Runs ord k c H (searchVerbose c) c' H' out → out = blocks (c.nodes.map fun r => searchBlock H.store (listing r)) :=
  prints_all (prints_search (T := fun ip obj => Serves ord k c H ip obj) hord .done c.nodes (fun r hr =>
    ⟨answering hord h k H hs r hr, (hs r hr).1.1, short_fits _ _ _ _ (by decide) (hs r hr).1.2⟩)).2 c H ⟨rfl, fun _ _ h => h⟩

/-- C114. The same for a round of uechobench -v, which does not ask for the manufacturer. -/
theorem C114_bench {ord : List Int → List Int} (hord : ValidOrder ord) {c : Ctl} {ops : List CtlOp} (h : CtlReach ord c ops) (k : Side) (H : Machines)
    (hs : Complete ord k c H) :
    (∃ c' H', Runs ord k c H (benchNodes 0 c.nodes .done) c' H' (blocks (c.nodes.map fun r => benchBlock H.store (listing r)))) ∧
    ∀ c' H' out, Runs ord k c H (benchNodes 0 c.nodes .done) c' H' out → out = blocks (c.nodes.map fun r => benchBlock H.store (listing r)) :=
  prints_all (prints_bench (T := fun ip obj => Serves ord k c H ip obj) hord .done c.nodes (fun r hr => answering hord h k H hs r hr)).2 c H ⟨rfl, fun _ _ h => h⟩

/-! ### A controller and a device -/

def verbOps : List CtlOp := [.start okNet none, .receive exEnv calmEnv okNet (exList "10.0.0.9" [0x029101])]
@[irreducible] def verbCtl : Ctl := runCtl List.dedup (Ctl.new List.dedup ⟨[], 0, 0⟩).1 verbOps
@[irreducible] def verbDev : LocalNode := runOps List.dedup (LocalNode.new List.dedup ⟨[], 0, 0⟩ false).1 [.add exObj, .start okNet none]
def verbSide : Side := ⟨("10.0.0.2", 3610), calmEnv, exEnv, okNet⟩
def verbMachines : Machines := fun ip => if ip = "10.0.0.9" then some ⟨(ip, 3610), verbDev, exEnv, okNet⟩ else none

theorem verb_reach : CtlReach List.dedup verbCtl verbOps := by
  refine ⟨⟨[], 0, 0⟩, ?_, by unfold verbCtl; rfl⟩
  intro op hop
  simp only [verbOps, List.mem_cons, List.not_mem_nil, or_false] at hop
  rcases hop with rfl | rfl
  · trivial
  · exact ⟨by unfold Delivered; decide +kernel, calmEnv_calm, exEnv_stable⟩

/-- What is decided about the two objects of the device. -/
def goodObj (k : Int) : Bool :=
  match verbDev.getObject (.int k) with
  | none => false
  | some o => decide (WellFormed o) && decide (o.handler = .self_) && o.props.all fun p => decide (p.2.data.length ≤ 255) && decide (p.1 = 0xD6 → p.2.data ≠ [])

theorem verb_ctl : working verbCtl.ln.mgr.servers ≠ [] ∧ Dict.keys verbCtl.found = ["10.0.0.9"] ∧ verbCtl.nodes.map listing = [("10.0.0.9", [0x0EF001, 0x029101])] := by decide +kernel
theorem verb_dev : working verbDev.mgr.servers ≠ [] ∧ verbDev.controller = false ∧ goodObj 0x0EF001 = true ∧ goodObj 0x029101 = true := by decide +kernel

theorem verb_connected : Connected List.dedup verbCtl verbDev := by
  refine ⟨⟨_, verb_reach⟩, ?_, ?_, ?_, ?_⟩
  · exact verb_ctl.1
  · refine ⟨⟨[], 0, 0⟩, false, [.add exObj, .start okNet none], ?_, by unfold verbDev; rfl⟩
    intro op hop
    simp only [List.mem_cons, List.not_mem_nil, or_false] at hop
    rcases hop with rfl | rfl <;> trivial
  · exact verb_dev.2.1
  · exact verb_dev.1

theorem verb_found : Found verbCtl "10.0.0.9" := by
  unfold Found
  rw [verb_ctl.2.1]
  exact List.mem_singleton.mpr rfl

theorem verb_good (k : Int) (hk : k = 0x0EF001 ∨ k = 0x029101) : Serves List.dedup verbSide verbCtl verbMachines "10.0.0.9" k ∧
    ∀ c, c ≠ 0xD5 → verbMachines.store.Short "10.0.0.9" k c := by
  have hg : goodObj k = true := by rcases hk with rfl | rfl; exacts [verb_dev.2.2.1, verb_dev.2.2.2]
  unfold goodObj at hg
  cases ho : verbDev.getObject (.int k) with
  | none => rw [ho] at hg; cases hg
  | some o =>
    rw [ho] at hg
    simp only [Bool.and_eq_true, decide_eq_true_eq, List.all_eq_true] at hg
    obtain ⟨⟨h1, h2⟩, h3⟩ := hg
    refine ⟨⟨⟨_, if_pos rfl, rfl, verb_connected, exWorld_works, o, ho, h1, h2, fun _ _ _ => rfl⟩, ?_, verb_found⟩, ?_⟩
    · rcases hk with rfl | rfl <;> decide
    · intro c hc
      have hst : verbMachines.store "10.0.0.9" k c = (lookup o.props c).map fun p => { readable := decide (CanRead p), writable := decide (CanWrite p), data := p.data } := by
        rw [store_host (if_pos rfl)]
        exact entryOf_obj ho c
      have hmem : ∀ p, lookup o.props c = some p → (c, p) ∈ o.props := fun p hp => Dict.mem_of_get? _ _ _ (by rw [← lookup_eq]; exact hp)
      constructor
      · unfold Store.data
        rw [hst]
        cases hl : lookup o.props c with
        | none => simp
        | some p =>
          have := (h3 _ (hmem p hl)).1
          simp only [Option.map_some]
          split
          · exact this
          · simp
      · intro hd hr he
        have hd : c = 0xD6 := by omega
        unfold Store.data at he
        rw [hst] at he hr
        cases hl : lookup o.props c with
        | none => rw [hl] at hr; cases hr
        | some p =>
          rw [hl] at he hr
          have hr : (decide (CanRead p)) = true := hr
          simp only [Option.map_some, hr, if_true] at he
          exact (h3 _ (hmem p hl)).2 hd he

theorem verb_complete : Complete List.dedup verbSide verbCtl verbMachines := by
  have hl := verb_ctl.2.2
  intro r hr
  have h1 : listing r ∈ verbCtl.nodes.map listing := List.mem_map_of_mem hr
  rw [hl, List.mem_singleton] at h1
  injection h1 with h1 h2
  rw [h1]
  refine ⟨⟨(verb_good _ (.inl rfl)).1, (verb_good _ (.inl rfl)).2 _ (by decide)⟩, ?_⟩
  intro o ho
  have hc : o.code ∈ r.node.objectList.map Obj.code := List.mem_map_of_mem ho
  rw [h2] at hc
  have hc : o.code = 0x0EF001 ∨ o.code = 0x029101 := by simpa using hc
  refine ⟨(verb_good _ hc).1, ?_⟩
  intro x hx
  refine (verb_good _ hc).2 _ ?_
  have hd : ∀ k ∈ [(0x0EF001 : Int), 0x029101], ∀ x ∈ mandatoryReads k, x.1 ≠ 0xD5 := by decide +kernel
  exact hd _ (by simpa using hc) x hx

/-- The program runs on it, and these are its first lines and those of the light. -/
example : ∃ c' H', Runs List.dedup verbSide verbCtl verbMachines (searchVerbose verbCtl) c' H'
    (blocks (verbCtl.nodes.map fun r => searchBlock verbMachines.store (listing r))) :=
  (C114_search (fun l => ⟨l.nodup_dedup, fun _ => List.mem_dedup⟩) verb_reach _ _ verb_complete).1
example : let out := (blocks ((verbCtl.nodes.map listing).map fun x => searchBlock verbMachines.store x)).map String.ofList
    (out.take 5, (out.drop 14).take 3) =
      (["10.0.0.9        ()", "[0] 0EF001 (Node profile) ", "[0] [0] 80 (Operating status) 30 ", "[0] [1] 81 (Installation location)  ", "[0] [2] 82 (Version information) 010D0100 "],
       ["[1] 029101 (Mono functional lighting) ", "[1] [0] 80 (Operation status) 30 ", "[1] [1] 81 (Installation location) 07 "]) := by
  rw [verb_ctl.2.2]
  decide +kernel

end Uecho
