/- C118: several controllers, several devices whose own programs change their data, messages from elsewhere: one store. -/
import Verif.Lemmas.Several
import Verif.Props.Session

namespace Uecho
open Spec

/-- C118. Any number of controllers post requests to any objects of any devices they have found, one after the other in any order; in between the programs
of the devices change data of their objects and messages of any kind reach the controllers. Every request gets a response, the responses are those of one store shared by all, and the
devices end up with the data of that store. -/
theorem C118_shared {ord : List Int → List Int} (hord : ValidOrder ord) (K : Nat → Side) (ds : List Deed) : ∀ (C : Ctls) (H : Machines),
    (∀ d ∈ ds, d.Ready ord K C H) → H.store.FitsAll ds →
    ∃ C' H' ms, Course ord K C H ds C' H' ms ∧
      ms.map (fun x => (x.1, { x.2 with tid := 0 })) = (H.store.replies ds).map (fun a => (a.1, { a.2.2 with fromAddr := some (a.2.1, 3610) })) ∧
      H'.store = H.store.doesAll ds ∧
      ∀ d : Deed, d.Ready ord K C H → d.Ready ord K C' H' := by
  induction ds with
  | nil => intro C H _ _; exact ⟨C, H, [], .nil C H, rfl, rfl, fun _ h => h⟩
  | cons d ds ih =>
    intro C H hs hf
    have hd := hs d List.mem_cons_self
    have hds : ∀ x ∈ ds, x.Ready ord K C H := fun x hx => hs x (List.mem_cons_of_mem _ hx)
    cases d with
    | request i r =>
      obtain ⟨f1, f2⟩ := hf
      obtain ⟨h, c1, n1, t, a1, a2, a3, a4⟩ := request_step hord K C H i r hd f1
      obtain ⟨C', H', ms, b1, b2, b3, b4⟩ := ih (C.put i c1) (H.put r.ip n1) (fun x hx => a4 x (hds x hx)) (by rw [a3]; exact f2)
      refine ⟨C', H', _ :: ms, .request h a1 a2 b1, ?_, ?_, fun x hx => b4 x (a4 x hx)⟩
      · rw [List.map_cons, b2, a3]
        show _ = (i, { H.store.answer r with fromAddr := some (r.ip, 3610) }) :: _
        congr 2
        have : (H.store.answer r).tid = 0 := by cases r <;> rfl
        rw [← this]
      · rw [b3, a3]
        rfl
    | assign ip obj code data =>
      obtain ⟨h, a1, a3, a4⟩ := assign_step hord K C H ip obj code data hd
      obtain ⟨C', H', ms, b1, b2, b3, b4⟩ := ih C _ (fun x hx => a4 x (hds x hx)) (by rw [a3]; exact hf)
      refine ⟨C', H', ms, .assign h a1 b1, ?_, ?_, fun x hx => b4 x (a4 x hx)⟩
      · rw [b2, a3]
        rfl
      · rw [b3, a3]
        rfl
    | hear i m =>
      have a4 := hear_step hord K C H i m hd
      obtain ⟨C', H', ms, b1, b2, b3, b4⟩ := ih _ H (fun x hx => a4 x (hds x hx)) hf
      exact ⟨C', H', ms, .hear b1, b2, b3, fun x hx => b4 x (a4 x hx)⟩

theorem course_unique {ord : List Int → List Int} {K : Nat → Side} {C : Ctls} {H : Machines} {ds : List Deed} {C1 : Ctls} {H1 : Machines} {ms1 : List (Nat × Msg)}
    (h1 : Course ord K C H ds C1 H1 ms1) : ∀ {C2 : Ctls} {H2 : Machines} {ms2 : List (Nat × Msg)}, Course ord K C H ds C2 H2 ms2 → C1 = C2 ∧ H1 = H2 ∧ ms1 = ms2 := by
  induction h1 with
  | nil => intro C2 H2 ms2 h2; cases h2; exact ⟨rfl, rfl, rfl⟩
  | request h hh hx ht ih =>
    intro C2 H2 ms2 h2
    cases h2 with
    | request g gh gx gt =>
      rw [hh] at gh
      obtain rfl := Option.some.inj gh
      obtain ⟨rfl, rfl, rfl⟩ := exchange_unique hx gx
      obtain ⟨rfl, rfl, rfl⟩ := ih gt
      exact ⟨rfl, rfl, rfl⟩
  | assign h hh ht ih =>
    intro C2 H2 ms2 h2
    cases h2 with
    | assign g gh gt =>
      rw [hh] at gh
      obtain rfl := Option.some.inj gh
      exact ih gt
  | hear ht ih =>
    intro C2 H2 ms2 h2
    cases h2 with
    | hear gt => exact ih gt

/-- C118. There is no other outcome. -/
theorem C118_only {ord : List Int → List Int} (hord : ValidOrder ord) (K : Nat → Side) (ds : List Deed) (C : Ctls) (H : Machines)
    (hs : ∀ d ∈ ds, d.Ready ord K C H) (hf : H.store.FitsAll ds) (C' : Ctls) (H' : Machines) (ms : List (Nat × Msg)) (h : Course ord K C H ds C' H' ms) :
    ms.map (fun x => (x.1, { x.2 with tid := 0 })) = (H.store.replies ds).map (fun a => (a.1, { a.2.2 with fromAddr := some (a.2.1, 3610) })) ∧
      H'.store = H.store.doesAll ds := by
  obtain ⟨C2, H2, ms2, h1, h2, h3, -⟩ := C118_shared hord K ds C H hs hf
  obtain ⟨rfl, rfl, rfl⟩ := course_unique h h1
  exact ⟨h2, h3⟩

/-- C118. The data of each property is what the deeds of all, in their order, make of it: a write granted and a change by the device's program replace it, all else
leaves it. Which properties exist and what they permit does not change. -/
theorem C118_data (ds : List Deed) : ∀ (s : Store) (ip : String) (k c : Int),
    s.doesAll ds ip k c = (s ip k c).map fun e => { e with data := ds.foldl (Deed.touch ip k c e.writable) e.data } := by
  induction ds with
  | nil =>
    intro s ip k c
    show s ip k c = _
    cases s ip k c <;> rfl
  | cons d ds ih =>
    intro s ip k c
    show (s.does d).doesAll ds ip k c = _
    rw [ih]
    have h1 : s.does d ip k c = (s ip k c).map fun e => { e with data := Deed.touch ip k c e.writable e.data d } := by
      cases d with
      | request i r =>
        have := C109_last_write s [r] ip k c
        rw [show s.final [r] = s.after r from rfl, List.flatMap_singleton] at this
        show s.after r ip k c = _
        rw [this]
        congr 1
        funext e
        show _ = ({ e with data := if e.writable then _ else e.data } : Entry)
        split <;> rfl
      | assign ip' k' c' data =>
        show s.assign ip' k' c' data ip k c = _
        unfold Store.assign Deed.touch
        by_cases e : ip' = ip ∧ k' = k ∧ c' = c
        · rw [if_pos ⟨e.1.symm, e.2.1.symm, e.2.2.symm⟩]
          congr 1
          funext x
          simp only [if_pos e]
        · rw [if_neg (fun x => e ⟨x.1.symm, x.2.1.symm, x.2.2.symm⟩)]
          simp only [if_neg e]
          cases s ip k c <;> rfl
      | hear i m =>
        show s ip k c = _
        cases s ip k c <;> rfl
    rw [h1, Option.map_map]
    rfl

/-- C118. What is read last written by anyone: if a request granted, or the device's program, gave the property the data `d`, and nothing after that did give it other data, then `d` is there. -/
theorem C118_last (s : Store) (ds es : List Deed) (d : Deed) (ip : String) (k c : Int) (e : Entry) (hs : s ip k c = some e) (x : Bytes)
    (hd : ∀ y, d.touch ip k c e.writable y = x) (hes : ∀ z ∈ es, ∀ y, z.touch ip k c e.writable y = y) :
    s.doesAll (ds ++ d :: es) ip k c = some { e with data := x } := by
  rw [C118_data, hs, Option.map_some, List.foldl_append, List.foldl_cons, hd]
  have : ∀ (l : List Deed), (∀ z ∈ l, ∀ y, z.touch ip k c e.writable y = y) → l.foldl (Deed.touch ip k c e.writable) x = x := by
    intro l
    induction l with
    | nil => intro _; rfl
    | cons z l ih => intro h; rw [List.foldl_cons, h z List.mem_cons_self]; exact ih (fun w hw => h w (List.mem_cons_of_mem _ hw))
  rw [this es hes]

example : (∀ y, (Deed.request 1 (.write "10.0.0.9" 0x029101 [(0x80, [0x31])])).touch "10.0.0.9" 0x029101 0x80 true y = [0x31]) ∧
    (∀ y, (Deed.request 0 (.read "10.0.0.9" 0x029101 [0x80])).touch "10.0.0.9" 0x029101 0x80 true y = y) ∧
    (∀ y, (Deed.assign "10.0.0.9" 0x029101 0x81 [2]).touch "10.0.0.9" 0x029101 0x80 true y = y) := by
  refine ⟨fun y => ?_, fun y => ?_, fun y => ?_⟩ <;> simp [Deed.touch, Req.writes, itemProps, lastFor]

/-! ### Two controllers and two devices -/

/-- Responses depend only on the objects asked. -/
theorem agreeAll (L : String → Int → Prop) (ds : List Deed) : (∀ d ∈ ds, ∀ i r, d = .request i r → L r.ip r.obj) →
    ∀ (s s' : Store), (∀ ip k, L ip k → ∀ c, s ip k c = s' ip k c) → s.replies ds = s'.replies ds ∧ (s.FitsAll ds ↔ s'.FitsAll ds) := by
  induction ds with
  | nil => intro _ s s' _; exact ⟨rfl, Iff.rfl⟩
  | cons d ds ih =>
    intro hL s s' h
    have h1 : ∀ ip k, L ip k → ∀ c, s.does d ip k c = s'.does d ip k c := by
      intro ip k hl c
      have e1 := C118_data [d] s ip k c
      have e2 := C118_data [d] s' ip k c
      rw [h ip k hl c, ← e2] at e1
      exact e1
    obtain ⟨i1, i2⟩ := ih (fun x hx => hL x (List.mem_cons_of_mem _ hx)) _ _ h1
    cases d with
    | request i r =>
      have hl := hL _ List.mem_cons_self i r rfl
      obtain ⟨a1, a2⟩ := agree [r] s s' (fun x hx c => by rw [List.mem_singleton.mp hx]; exact h _ _ hl c)
      have a3 : s.answer r = s'.answer r := by
        have := List.head_eq_of_cons_eq a1
        exact (Prod.mk.inj this).2
      refine ⟨?_, and_congr a2 i2⟩
      show (i, r.ip, s.answer r) :: _ = (i, r.ip, s'.answer r) :: _
      rw [a3, i1]
    | assign => exact ⟨i1, i2⟩
    | hear => exact ⟨i1, i2⟩

/-- The first controller switches a light on, which the second sees; the light's program changes 0x81, which nobody may write, and the first controller sees it; the second hears
of a third device; the second switches the light to 0x41, which the first sees, the other light having kept its data. -/
def exDeeds : List Deed :=
  [.request 0 (.write "10.0.0.9" 0x029101 [(0x80, [0x31])]), .request 1 (.read "10.0.0.9" 0x029101 [0x80]), .assign "10.0.0.9" 0x029101 0x81 [9],
   .request 0 (.read "10.0.0.9" 0x029101 [0x81]), .hear 1 (exList "10.0.0.7" [0x029101]), .request 1 (.write "10.0.0.9" 0x029101 [(0x80, [0x41])]),
   .request 0 (.read "10.0.0.9" 0x029101 [0x80]), .request 0 (.read "10.0.0.8" 0x029101 [0x80])]

theorem ex_course {ord : List Int → List Int} (hord : ValidOrder ord) : ∃ K C H, (∀ d ∈ exDeeds, d.Ready ord K C H) ∧ H.store.FitsAll exDeeds ∧ (K 0).addr ≠ (K 1).addr ∧
    (H.store.replies exDeeds).map (fun a => (a.1, a.2.1, a.2.2.esv, a.2.2.props)) =
      [(0, "10.0.0.9", 0x71, [{ code := 0x80 }]), (1, "10.0.0.9", 0x72, [{ code := 0x80, data := [0x31] }]),
       (0, "10.0.0.9", 0x72, [{ code := 0x81, data := [9] }]), (1, "10.0.0.9", 0x71, [{ code := 0x80 }]),
       (0, "10.0.0.9", 0x72, [{ code := 0x80, data := [0x41] }]), (0, "10.0.0.8", 0x72, [{ code := 0x80, data := [0x30] }])] := by
  obtain ⟨c, ops, h1, h2, h3, h4⟩ := ctl_two hord
  obtain ⟨n, d1, d2, d3, d4⟩ := dev_device hord exObj
  let K : Nat → Side := fun i => ⟨(if i = 0 then "10.0.0.2" else "10.0.0.3", 3610), calmEnv, exEnv, okNet⟩
  let C : Ctls := fun _ => c
  let H : Machines := fun ip => if ip = "10.0.0.9" ∨ ip = "10.0.0.8" then some ⟨(ip, 3610), n, exEnv, okNet⟩ else none
  have hs : ∀ i ip, ip = "10.0.0.9" ∨ ip = "10.0.0.8" → Serves ord (K i) (C i) H ip 0x029101 := by
    intro i ip hip
    refine ⟨⟨⟨(ip, 3610), n, exEnv, okNet⟩, if_pos hip, rfl, ⟨⟨_, h1⟩, h2, d1, d2, d4⟩, exWorld_works, exObj, d3, by decide, rfl, fun _ _ _ => rfl⟩, by decide, ?_⟩
    rcases hip with rfl | rfl <;> assumption
  have hst : ∀ ip k, ((ip = "10.0.0.9" ∨ ip = "10.0.0.8") ∧ k = 0x029101) → ∀ c, H.store ip k c = exStore ip k c := by
    intro ip k hip c
    obtain ⟨hip, rfl⟩ := hip
    rw [store_host (if_pos hip)]
    refine (entryOf_obj d3 c).trans ?_
    exact (if_pos ⟨hip, rfl⟩).symm
  have hL : ∀ d ∈ exDeeds, ∀ i r, d = .request i r → (r.ip = "10.0.0.9" ∨ r.ip = "10.0.0.8") ∧ r.obj = 0x029101 := by
    intro d hd i r e
    subst e
    simp only [exDeeds, List.mem_cons, List.not_mem_nil, or_false, Deed.request.injEq, reduceCtorEq, false_or] at hd
    rcases hd with ⟨-, rfl⟩ | ⟨-, rfl⟩ | ⟨-, rfl⟩ | ⟨-, rfl⟩ | ⟨-, rfl⟩ | ⟨-, rfl⟩ <;> decide
  obtain ⟨e1, e2⟩ := agreeAll _ exDeeds hL H.store exStore hst
  have hd : Delivered (exList "10.0.0.7" [0x029101]) := by unfold Delivered; decide +kernel
  refine ⟨K, C, H, ?_, e2.mpr ?_, by decide, by rw [e1]; decide +kernel⟩
  · intro d hd'
    simp only [exDeeds, List.mem_cons, List.not_mem_nil, or_false] at hd'
    rcases hd' with rfl | rfl | rfl | rfl | rfl | rfl | rfl | rfl
    · exact hs 0 _ (by decide)
    · exact hs 1 _ (by decide)
    · exact ⟨by decide, _, if_pos (by decide), d1⟩
    · exact hs 0 _ (by decide)
    · exact ⟨hd, ⟨_, h1⟩, calmEnv_calm, exEnv_stable⟩
    · exact hs 1 _ (by decide)
    · exact hs 0 _ (by decide)
    · exact hs 0 _ (by decide)
  · have hl : ∀ (P : Prop) (m : Msg) (p : PProp) (l : List PProp), m.props = p :: l → p.code ≠ 0xD5 ∧ p.code ≠ 0xD6 → P → instanceListOf m ≠ .empty := by
      intro P m p l h1 h2 _ h
      unfold instanceListOf at h
      rw [h1] at h
      simp only [] at h
      rw [if_neg (by omega)] at h
      cases h
    refine ⟨⟨by decide +kernel, by decide +kernel, hl _ _ _ _ rfl (by decide), trivial, trivial⟩, ⟨by decide +kernel, by decide +kernel, hl _ _ _ _ rfl (by decide), trivial, trivial⟩,
      ⟨by decide +kernel, by decide +kernel, hl _ _ _ _ rfl (by decide), trivial, trivial⟩, ⟨by decide +kernel, by decide +kernel, hl _ _ _ _ rfl (by decide), trivial, trivial⟩,
      ⟨by decide +kernel, by decide +kernel, hl _ _ _ _ rfl (by decide), trivial, trivial⟩, ⟨by decide +kernel, by decide +kernel, hl _ _ _ _ rfl (by decide), trivial, trivial⟩, trivial⟩

example {ord : List Int → List Int} (hord : ValidOrder ord) : ∃ K C H C' H' ms, Course ord K C H exDeeds C' H' ms ∧
    ms.map (fun x => (x.1, x.2.props.map PProp.data)) = [(0, [[]]), (1, [[0x31]]), (0, [[9]]), (1, [[]]), (0, [[0x41]]), (0, [[0x30]])] := by
  obtain ⟨K, C, H, h1, h2, -, h3⟩ := ex_course hord
  obtain ⟨C', H', ms, h4, h5, -⟩ := C118_shared hord K exDeeds C H h1 h2
  refine ⟨K, C, H, C', H', ms, h4, ?_⟩
  have e1 := congrArg (List.map fun x => (x.1, x.2.props.map PProp.data)) h5
  have e2 := congrArg (List.map fun x => (x.1, x.2.2.2.map PProp.data)) h3
  rw [List.map_map, List.map_map] at e1
  rw [List.map_map] at e2
  exact e1.trans e2

end Uecho
