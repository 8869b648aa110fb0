/- C132: a number stored in a property is the number read, on the device and over the network. -/
import Verif.Props.Several
import Verif.Props.Bytes

namespace Uecho
open Spec

/-- C132. On the device: `set_property_integer` with any size, 0 included, stores the number modulo 256 to the power of the size, and `number` reads that; a property the object does not have is not
made; a negative size raises and changes nothing; no other property is changed. -/
theorem C132_device (o : Obj) (c v size : Int) :
    (0 ≤ size → (o.setPropertyInteger c v size).2 = .ok (lookup o.props c).isSome ∧
      (∀ c', lookup (o.setPropertyInteger c v size).1.props c' = none ↔ lookup o.props c' = none) ∧
      (∀ p, lookup (o.setPropertyInteger c v size).1.props c = some p → p.number = v % 256 ^ size.toNat ∧ p.data.length = size.toNat) ∧
      ∀ c', c' ≠ c → lookup (o.setPropertyInteger c v size).1.props c' = lookup o.props c') ∧
    (size < 0 → o.setPropertyInteger c v size = (o, .error .valueError)) := by
  obtain ⟨h1, h2⟩ := C01_from_int v size
  constructor
  · intro hs
    obtain ⟨b, h3, h4, -, h5, -⟩ := h1 hs
    have e : o.setPropertyInteger c v size = ((o.setPropertyData c b).1, .ok (o.setPropertyData c b).2) := by
      unfold Obj.setPropertyInteger
      rw [h3]
    rw [e]
    refine ⟨?_, ?_, ?_, ?_⟩
    · show Except.ok (o.setPropertyData c b).2 = _
      have : o.getProperty c = lookup o.props c := by rw [getProperty_eq]
      unfold Obj.setPropertyData
      rw [this]
      cases lookup o.props c <;> rfl
    · intro c'
      rw [set_lookup, Option.map_eq_none_iff]
    · intro p hp
      rw [set_lookup] at hp
      obtain ⟨q, -, rfl⟩ := Option.map_eq_some_iff.mp hp
      rw [if_pos rfl]
      exact ⟨h5, h4⟩
    · intro c' hc
      rw [set_lookup]
      simp only [if_neg hc, Option.map_id']
  · intro hs
    unfold Obj.setPropertyInteger
    rw [h2 hs]

theorem replies_append (ds : List Deed) : ∀ (s : Store) (es : List Deed), s.replies (ds ++ es) = s.replies ds ++ (s.doesAll ds).replies es := by
  induction ds with
  | nil => intro s es; rfl
  | cons d ds ih =>
    intro s es
    cases d with
    | request i r =>
      show (i, r.ip, s.answer r) :: (s.does (.request i r)).replies (ds ++ es) = (i, r.ip, s.answer r) :: (s.does (.request i r)).replies ds ++ _
      rw [ih]
      rfl
    | assign ip k c d =>
      show (s.does (.assign ip k c d)).replies (ds ++ es) = (s.does (.assign ip k c d)).replies ds ++ _
      rw [ih]
      rfl
    | hear i m =>
      show (s.does (.hear i m)).replies (ds ++ es) = (s.does (.hear i m)).replies ds ++ _
      rw [ih]
      rfl

/-- C132. Over the network: something (the device's program, `set_property_integer`, or a write of some controller that is granted) gives a property the number `v` in `n` bytes. Then other things happen, of all
controllers and devices, that do not give it data again. A controller that reads the property then gets the number `v`, and the device itself has it. -/
theorem C132_network {ord : List Int → List Int} (hord : ValidOrder ord) (K : Nat → Side) (C : Ctls) (H : Machines) (pre mid : List Deed) (d : Deed) (i : Nat) (ip : String) (k c : Int) (e : Entry)
    (hs : ∀ x ∈ pre ++ d :: mid ++ [.request i (.read ip k [c])], x.Ready ord K C H) (hf : H.store.FitsAll (pre ++ d :: mid ++ [.request i (.read ip k [c])]))
    (he : H.store ip k c = some e) (hr : e.readable = true) (v size : Int) (hv : 0 ≤ v ∧ v < 256 ^ size.toNat) (b : Bytes) (hb : fromIntPy v size = .ok b)
    (hd : d = .assign ip k c b ∨ ∃ j, d = .request j (.write ip k [(c, b)]) ∧ e.writable = true)
    (hmid : ∀ z ∈ mid, ∀ y, z.touch ip k c e.writable y = y)
    (C' : Ctls) (H' : Machines) (ms : List (Nat × Msg)) (h : Course ord K C H (pre ++ d :: mid ++ [.request i (.read ip k [c])]) C' H' ms) :
    (∃ m p, ms.getLast? = some (i, m) ∧ m.esv = 0x72 ∧ m.props = [p] ∧ p.code = c ∧ toInt p.data = v) ∧
    ∃ g o p, H' ip = some g ∧ g.node.getObject (.int k) = some o ∧ lookup o.props c = some p ∧ p.number = v := by
  have hsz : 0 ≤ size := by
    by_contra hneg
    rw [(C01_from_int v size).2 (by omega)] at hb
    cases hb
  obtain ⟨b', h1, -, -, -, h2⟩ := (C01_from_int v size).1 hsz
  rw [hb] at h1
  obtain rfl := Except.ok.inj h1
  have hbv := h2 hv
  have ht : ∀ y, d.touch ip k c e.writable y = b := by
    intro y
    rcases hd with rfl | ⟨j, rfl, hw⟩
    · simp [Deed.touch]
    · simp [Deed.touch, hw, Req.writes, itemProps, lastFor]
  have hlast := C118_last H.store pre mid d ip k c e he b ht hmid
  obtain ⟨g1, g2⟩ := C118_only hord K _ C H hs hf C' H' ms h
  constructor
  · rw [replies_append] at g1
    have g3 : (Store.replies (H.store.doesAll (pre ++ d :: mid)) [.request i (.read ip k [c])]) = [(i, ip, (H.store.doesAll (pre ++ d :: mid)).answer (.read ip k [c]))] := rfl
    rw [g3, List.map_append, List.map_singleton] at g1
    have g4 := congrArg List.getLast? g1
    rw [List.getLast?_concat, List.getLast?_map] at g4
    obtain ⟨⟨i', m⟩, l1, l2⟩ := Option.map_eq_some_iff.mp g4
    obtain ⟨rfl, l2⟩ := Prod.mk.inj l2
    have e1 : m.esv = ((H.store.doesAll (pre ++ d :: mid)).answer (.read ip k [c])).esv := by
      have := congrArg Msg.esv l2
      exact this
    have e2 : m.props = ((H.store.doesAll (pre ++ d :: mid)).answer (.read ip k [c])).props := by
      have := congrArg Msg.props l2
      exact this
    refine ⟨m, { code := c, data := b }, l1, ?_, ?_, rfl, hbv⟩
    · rw [e1]
      unfold Store.answer Store.allRead
      simp [hlast, isReadable, hr]
    · rw [e2]
      unfold Store.answer Store.got
      simp [hlast, hr]
  · have hfin : H'.store ip k c = some { e with data := b } := by
      rw [g2]
      have : H.store.doesAll (pre ++ d :: mid ++ [.request i (.read ip k [c])]) = H.store.doesAll (pre ++ d :: mid) := by
        unfold Store.doesAll
        rw [List.foldl_append]
        rfl
      rw [this]
      exact hlast
    unfold Machines.store at hfin
    obtain ⟨g, k1, k2⟩ := Option.bind_eq_some_iff.mp hfin
    obtain ⟨o, k3, k4⟩ := Option.bind_eq_some_iff.mp k2
    obtain ⟨p, k5, k6⟩ := Option.map_eq_some_iff.mp k4
    refine ⟨g, o, p, k1, k3, k5, ?_⟩
    have : p.data = b := congrArg Entry.data k6
    unfold OProp.number
    rw [this]
    exact hbv

/-- What is stored is the number without its sign: −1 in one byte is 255. -/
example : fromIntPy (-1) 1 = .ok [0xFF] ∧ toInt [0xFF] = 255 := ⟨by decide +kernel, by decide +kernel⟩

example : (exObj.setPropertyInteger 0x81 0x1234 2).2 = .ok true ∧ (lookup (exObj.setPropertyInteger 0x81 0x1234 2).1.props 0x81).map OProp.number = some 0x1234 ∧
    (exObj.setPropertyInteger 0x81 1 (-1)).2 = .error .valueError := by
  refine ⟨by decide +kernel, by decide +kernel, ?_⟩
  rw [(C132_device exObj 0x81 1 (-1)).2 (by decide)]

theorem fitsAll_left (ds : List Deed) : ∀ (s : Store) (es : List Deed), s.FitsAll (ds ++ es) → s.FitsAll ds := by
  induction ds with
  | nil => intro s es _; exact trivial
  | cons d ds ih =>
    intro s es h
    cases d with
    | request i r => exact ⟨h.1, ih _ _ h.2⟩
    | assign ip k c d => exact ih _ _ h
    | hear i m => exact ih _ _ h

/-- The hypotheses of `C132_network`, in the course of `ex_course`: the light's program sets 0x81 to 9, which controller 0 reads; controller 1 writes 0x41 to 0x80, which controller 0 reads. -/
example {ord : List Int → List Int} (hord : ValidOrder ord) : ∃ K C H, ∃ e : Entry, H.store "10.0.0.9" 0x029101 0x81 = some e ∧ e.readable = true ∧
    (∀ x ∈ exDeeds.take 2 ++ Deed.assign "10.0.0.9" 0x029101 0x81 [9] :: [] ++ [.request 0 (.read "10.0.0.9" 0x029101 [0x81])], x.Ready ord K C H) ∧
    H.store.FitsAll (exDeeds.take 2 ++ Deed.assign "10.0.0.9" 0x029101 0x81 [9] :: [] ++ [.request 0 (.read "10.0.0.9" 0x029101 [0x81])]) ∧ fromIntPy 9 1 = .ok [9] := by
  obtain ⟨K, C, H, h1, h2, -, h3⟩ := ex_course hord
  have e4 : exDeeds.take 2 ++ Deed.assign "10.0.0.9" 0x029101 0x81 [9] :: [] ++ [.request 0 (.read "10.0.0.9" 0x029101 [0x81])] = exDeeds.take 4 := rfl
  have hent : ∃ e : Entry, H.store "10.0.0.9" 0x029101 0x81 = some e ∧ e.readable = true := by
    have := congrArg (fun l => l[2]?) h3
    simp only [List.getElem?_map] at this
    have hsplit : exDeeds = exDeeds.take 3 ++ exDeeds.drop 3 := rfl
    rw [hsplit, replies_append, List.getElem?_append_right (by show 2 ≤ 2; decide)] at this
    change some ((0 : Nat), "10.0.0.9", ((H.store.doesAll (exDeeds.take 3)).answer (.read "10.0.0.9" 0x029101 [0x81])).esv,
      ((H.store.doesAll (exDeeds.take 3)).answer (.read "10.0.0.9" 0x029101 [0x81])).props) = some (0, "10.0.0.9", 0x72, [{ code := 0x81, data := [9] }]) at this
    have hp := (Prod.mk.inj (Prod.mk.inj (Prod.mk.inj (Option.some.inj this)).2).2).2
    have hd := C118_data (exDeeds.take 3) H.store "10.0.0.9" 0x029101 0x81
    unfold Store.answer Store.got at hp
    simp only [List.map_cons, List.map_nil, List.cons.injEq, PProp.mk.injEq, true_and, and_true] at hp
    rw [hd] at hp
    cases hh : H.store "10.0.0.9" 0x029101 0x81 with
    | none => rw [hh] at hp; simp at hp
    | some e =>
      refine ⟨e, rfl, ?_⟩
      rw [hh] at hp
      by_contra hne
      simp [hne] at hp
  obtain ⟨e, k1, k2⟩ := hent
  refine ⟨K, C, H, e, k1, k2, ?_, ?_, by decide +kernel⟩
  · rw [e4]
    exact fun x hx => h1 x (List.mem_of_mem_take hx)
  · rw [e4]
    exact fitsAll_left _ _ (exDeeds.drop 4) h2

end Uecho
