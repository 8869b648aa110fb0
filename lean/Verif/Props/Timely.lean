/- C169: a device with busy threads answers in time, and with what it has. -/
import Verif.Lemmas.Timely
import Verif.Props.Nowait

namespace Uecho
open Spec Crowd

theorem crowd_exec_append (net : Net) : ∀ (l l' : List Crowd.Act) (G : St), G.exec net (l ++ l') = (G.exec net l).bind fun G => G.exec net l'
  | [], _, _ => rfl
  | x :: l, l', G => by
    show (match G.act net x with | some G => St.exec net G (l ++ l') | none => none) = Option.bind (match G.act net x with | some G => St.exec net G l | none => none) _
    cases G.act net x with
    | none => rfl
    | some G1 => exact crowd_exec_append net l l' G1

/-- A thread that has read a datagram works until it is done. -/
theorem still_working {t : Nat} {d : Bytes} {a : Addr} {l0 l : List Happening} (h : ¬ ∃ e ∈ l, DoneBy t e) : doing t (l0 ++ .recv t d a :: l) = .working := by
  have key : ∀ l : List Happening, (¬ ∃ e ∈ l, DoneBy t e) → l.foldl (Doing.next t) .working = .working := by
    intro l
    induction l with
    | nil => intro _; rfl
    | cons x l ih =>
      intro h
      have hx : Doing.next t .working x = .working := by
        cases x with
        | recv u d a => simp [Doing.next]
        | app => rfl
        | call => rfl
        | sent u k =>
          by_cases hu : u = t
          · subst hu; exact absurd ⟨_, List.mem_cons_self, .inr ⟨k, rfl⟩⟩ h
          · simp [Doing.next, hu]
        | ended u =>
          by_cases hu : u = t
          · subst hu; exact absurd ⟨_, List.mem_cons_self, .inl rfl⟩ h
          · simp [Doing.next, hu]
      rw [List.foldl_cons, hx]
      exact ih fun ⟨e, he, hd⟩ => h ⟨e, List.mem_cons_of_mem _ he, hd⟩
  unfold doing
  rw [List.foldl_append, List.foldl_cons]
  rw [show Doing.next t (l0.foldl (Doing.next t) .nothing) (.recv t d a) = .working by simp [Doing.next]]
  exact key l h

/-- What is seen after a datagram is read comes after it. -/
theorem read_log {n : LocalNode} {net : Net} {before after : List Crowd.Act} {G G' : St} {t : Nat} {d : Bytes} {a : Addr} (hG : (begin n).exec net before = some G)
    (hG' : G.exec net (.arrive t d a :: after) = some G') : ∃ l, G'.log = G.log ++ .recv t d a :: l := by
  obtain ⟨ho, -⟩ := exec_left before (placed_begin n) hG
  unfold St.exec at hG'
  cases hx : G.act net (.arrive t d a) with
  | none => rw [hx] at hG'; cases hG'
  | some G1 =>
    rw [hx] at hG'
    have hG' : G1.exec net after = some G' := hG'
    have hx' : G.arrive t d a = some G1 := hx
    have hfree : G.places t = .free := by
      unfold St.arrive at hx'
      cases hpl : G.places t with
      | free => rfl
      | _ => rw [hpl] at hx'; cases hx'
    obtain ⟨G2, l1, h1, hm, -⟩ := arrive_left (ho t).1 hfree d a
    rw [hx'] at h1
    injection h1 with h1
    subst h1
    obtain ⟨-, l2, e2, -⟩ := exec_left after (act_left ho hx).1 hG'
    exact ⟨l1 ++ l2, by rw [e2, hm.log, List.append_assoc]; rfl⟩

/-- **C169.** A datagram comes to a device whose receiving threads work at the same time, under the conditions of C166. After two steps of its thread for each property the datagram names and two more,
whatever else happens, or earlier, the thread is done with it: it has sent what the device sends that handles one datagram at a time, or has ended if that device's thread ends, as the device is at some moment in
between. Its properties then have data they had in the beginning, or that the program has set or a datagram has asked for, before the answer is sent. -/
theorem C169_answer {n : LocalNode} (hobj : ∀ c o, n.getObject (.int c) = some o → WellFormed o ∧ o.handler = .self_) (hctl : n.controller = false) (hshort : Short (deviceOf n))
    (hcan : CanSend n.mgr) {net : Net} (hnet : NetWorks net) {before after : List Crowd.Act} {G G' : St} {t : Nat} {d : Bytes} {a : Addr} (hG : (begin n).exec net before = some G)
    (hG' : G.exec net (.arrive t d a :: after) = some G') (hone : ∀ t d a, Happening.recv t d a ∈ G'.log → OneAt (deviceOf n) G'.log d)
    (happ : ∀ c p v, Happening.app c p v ∈ G'.log → v.length < 256) (hturns : 2 * namedIn d + 2 ≤ turns t after ∨ doing t G'.log ≠ .working) :
    ∃ D l1 l2, G'.log = G.log ++ .recv t d a :: (l1 ++ doneWith t (D.actual d a).2 :: l2) ∧ (∀ x ∈ l1, ¬ DoneBy t x) ∧ Grown (G.log ++ .recv t d a :: l1) (deviceOf n) D := by
  obtain ⟨l, hl, hd⟩ : ∃ l, G'.log = G.log ++ .recv t d a :: l ∧ ∃ e ∈ l, DoneBy t e := by
    rcases hturns with h | h
    · exact C168_done hG hG' h
    · obtain ⟨l, hl⟩ := read_log hG hG'
      refine ⟨l, hl, Classical.byContradiction fun hn => h ?_⟩
      rw [hl]
      exact still_working hn
  have hx : (begin n).exec net (before ++ .arrive t d a :: after) = some G' := by rw [crowd_exec_append, hG]; exact hG'
  obtain ⟨h, hT⟩ := C166_one_at_a_time hobj hctl hshort hcan hnet hx hone happ
  obtain ⟨D, l1, l2, e, h1, h2⟩ := tale_answer hT hl hd
  exact ⟨D, l1, l2, by rw [hl, e], h1, h2⟩

/-- What a device that is no controller does with a read. -/
theorem actual_get {D : RefDevice} (hc : D.ctl = false) {d : Bytes} {a : Addr} {m : Msg} (hm : readMsg (d.take 1024) = some m) (he : m.esv = 0x62) (h0 : m.tid ≠ 0) {t : Thing} (ht : D.things m.deoj = some t)
    (hs : t.serves = true) : (D.actual d a).2 = ((D.ifs.take 1).map fun i =>
      ⟨i, a, encode { tid := m.tid, seoj := m.deoj, deoj := m.seoj, esv := if t.canGetAll m.props then 0x72 else 0x52, props := t.values m.props }⟩, true) := by
  have ha : t.actual m = (t, some { tid := m.tid, seoj := m.deoj, deoj := m.seoj, esv := if t.canGetAll m.props then 0x72 else 0x52, props := t.values m.props }, true) := by
    unfold Thing.actual
    rw [if_neg (by rw [hs]; simp), if_neg (by rw [he]; decide), if_neg (by rw [he]; decide), if_pos he]
  unfold RefDevice.actual
  simp only [hm, ht, ha]
  have hc' : (D.setThing m.deoj t).ctl = false := hc
  simp only [hc', Bool.false_eq_true, if_false]
  rw [if_neg h0]
  show ((D.setThing m.deoj t).sends _ a, true) = _
  unfold RefDevice.sends
  rw [if_neg (by show ¬ ((if t.canGetAll m.props then (0x72 : Int) else 0x52) = 0x73); split <;> decide)]
  rfl

/-- **C169.** If the datagram is a read of an object of the device, it is answered in this time, once, to the one who asked and with the number of the request, with the values of all properties the object
had at a moment in between. -/
theorem C169_read {n : LocalNode} (hobj : ∀ c o, n.getObject (.int c) = some o → WellFormed o ∧ o.handler = .self_) (hctl : n.controller = false) (hshort : Short (deviceOf n))
    (hcan : CanSend n.mgr) {net : Net} (hnet : NetWorks net) {before after : List Crowd.Act} {G G' : St} {t : Nat} {d : Bytes} {a : Addr} (hG : (begin n).exec net before = some G)
    (hG' : G.exec net (.arrive t d a :: after) = some G') (hone : ∀ t d a, Happening.recv t d a ∈ G'.log → OneAt (deviceOf n) G'.log d)
    (happ : ∀ c p v, Happening.app c p v ∈ G'.log → v.length < 256) (hturns : 2 * namedIn d + 2 ≤ turns t after ∨ doing t G'.log ≠ .working)
    {m : Msg} (hm : readMsg (d.take 1024) = some m) (he : m.esv = 0x62) {o : Obj} (ho : n.getObject (.int m.deoj) = some o) :
    ∃ x l1 l2, G'.log = G.log ++ .recv t d a :: (l1 ++ .sent t (((deviceOf n).ifs.take 1).map fun i =>
        ⟨i, a, encode { tid := m.tid, seoj := m.deoj, deoj := m.seoj, esv := if x.canGetAll m.props then 0x72 else 0x52, props := x.values m.props }⟩) :: l2) ∧
      (∀ x ∈ l1, ¬ DoneBy t x) ∧ ThingGrown (G.log ++ .recv t d a :: l1) m.deoj (thingOf o) x := by
  obtain ⟨D, l1, l2, h1, h2, h3⟩ := C169_answer hobj hctl hshort hcan hnet hG hG' hone happ hturns
  have h0 : m.tid ≠ 0 := (hone t d a (by rw [h1]; simp) m hm).1
  have hth := h3.things m.deoj
  rw [show (deviceOf n).things m.deoj = some (thingOf o) by show (n.getObject (.int m.deoj)).map thingOf = _; rw [ho]; rfl] at hth
  cases hx : D.things m.deoj with
  | none => rw [hx] at hth; cases hth
  | some x =>
    rw [hx] at hth
    cases hth with
    | some hg =>
      have hs : x.serves = true := hg.serves.trans (by show decide (o.handler ≠ .none) = true; rw [(hobj _ o ho).2]; decide)
      have ha := actual_get (h3.ctl.trans hctl) (a := a) hm he h0 hx hs
      rw [ha, h3.ifs] at h1
      exact ⟨x, l1, l2, h1, h2, hg⟩

/-- **C169.** If nobody writes the properties that are read, and the program does not set them, the answer is what the device would have said in the beginning, whatever the other threads and the program
do to other properties. -/
theorem C169_steady {n : LocalNode} (hobj : ∀ c o, n.getObject (.int c) = some o → WellFormed o ∧ o.handler = .self_) (hctl : n.controller = false) (hshort : Short (deviceOf n))
    (hcan : CanSend n.mgr) {net : Net} (hnet : NetWorks net) {before after : List Crowd.Act} {G G' : St} {t : Nat} {d : Bytes} {a : Addr} (hG : (begin n).exec net before = some G)
    (hG' : G.exec net (.arrive t d a :: after) = some G') (hone : ∀ t d a, Happening.recv t d a ∈ G'.log → OneAt (deviceOf n) G'.log d)
    (happ : ∀ c p v, Happening.app c p v ∈ G'.log → v.length < 256) (hturns : 2 * namedIn d + 2 ≤ turns t after ∨ doing t G'.log ≠ .working)
    {m : Msg} (hm : readMsg (d.take 1024) = some m) (he : m.esv = 0x62) {o : Obj} (ho : n.getObject (.int m.deoj) = some o)
    (hsteady : ∀ i ∈ m.props, ¬ MayChangeAt (deviceOf n) G'.log m.deoj i.code) :
    ∃ l1 l2, G'.log = G.log ++ .recv t d a :: (l1 ++ .sent t (((deviceOf n).ifs.take 1).map fun i =>
        ⟨i, a, encode { tid := m.tid, seoj := m.deoj, deoj := m.seoj, esv := if (thingOf o).canGetAll m.props then 0x72 else 0x52, props := (thingOf o).values m.props }⟩) :: l2) ∧
      ∀ x ∈ l1, ¬ DoneBy t x := by
  obtain ⟨x, l1, l2, h1, h2, h3⟩ := C169_read hobj hctl hshort hcan hnet hG hG' hone happ hturns hm he ho
  have hsub : ∀ e ∈ G.log ++ Happening.recv t d a :: l1, e ∈ G'.log := by
    intro e hm
    rw [h1]
    rcases List.mem_append.mp hm with hm | hm
    · exact List.mem_append_left _ hm
    · rcases List.mem_cons.mp hm with rfl | hm
      · exact List.mem_append_right _ List.mem_cons_self
      · exact List.mem_append_right _ (List.mem_cons_of_mem _ (List.mem_append_left _ hm))
  have hth : (deviceOf n).things m.deoj = some (thingOf o) := by show (n.getObject (.int m.deoj)).map thingOf = _; rw [ho]; rfl
  have key : ∀ i ∈ m.props, x.canGet i.code = (thingOf o).canGet i.code ∧ x.value i.code = (thingOf o).value i.code := by
    intro i hi
    have hns := hsteady i hi
    have hp := h3.props i.code
    have hset : ∀ e, (thingOf o).props i.code = some e → e.writable = true → (thingOf o).canSet i.code = true := by
      intro e h1 h2
      unfold Thing.canSet
      rw [h1]; exact h2
    unfold Thing.canGet Thing.value
    revert hset hp
    generalize (thingOf o).props i.code = y, x.props i.code = y'
    rintro (⟨k1, k2, k3⟩ | _) hset
    · rename_i e e'
      have hd : e'.data = e.data := by
        rcases k3 with k | k | ⟨k, u, d', a', w, r1, r2, r3, r4⟩
        · exact k
        · exact absurd (.inr ⟨_, hsub _ k⟩) hns
        · refine absurd (.inl ⟨_, hth, hset e rfl k, u, d', a', w, hsub _ r1, r2, r3, ?_⟩) hns
          rcases r4 with ⟨r4, j, j1, j2, -⟩ | ⟨r4, j, j1, j2, -⟩
          · exact .inl ⟨r4, j, j1, j2⟩
          · exact .inr ⟨r4, j, j1, j2⟩
      refine ⟨k1, ?_⟩
      simp only [k1, hd]
    · exact ⟨rfl, rfl⟩
  have hall : ∀ is : List PProp, (∀ i ∈ is, x.canGet i.code = (thingOf o).canGet i.code ∧ x.value i.code = (thingOf o).value i.code) →
      x.canGetAll is = (thingOf o).canGetAll is ∧ x.values is = (thingOf o).values is := by
    intro is
    induction is with
    | nil => intro _; exact ⟨rfl, rfl⟩
    | cons i is ih =>
      intro h
      obtain ⟨k1, k2⟩ := h i (by simp)
      obtain ⟨j1, j2⟩ := ih fun j hj => h j (by simp [hj])
      unfold Thing.canGetAll Thing.values at *
      rw [List.all_cons, List.all_cons, List.map_cons, List.map_cons, k1, k2, j1, j2]
      exact ⟨rfl, rfl⟩
  obtain ⟨e1, e2⟩ := hall m.props key
  rw [e1, e2] at h1
  exact ⟨l1, l2, h1, h2⟩

/-- **C170.** A device whose receiving threads work at the same time, under the conditions of C166, is done with a request to write a property (`d1`, which says `i`) before a request to read is read
(`d2`), at the same thread or another. The write may have been with or without confirmation, and the device may be doing any other things. If all that is written to this property from then on is the
same (`hsame`), and so is what datagrams ask for that are not done with when `d1` comes (`hopen`), what the read gives for it is what was written. What was written to it before makes no difference. -/
theorem C170_read_back {n : LocalNode} (hobj : ∀ c o, n.getObject (.int c) = some o → WellFormed o ∧ o.handler = .self_) (hctl : n.controller = false) (hshort : Short (deviceOf n))
    (hcan : CanSend n.mgr) {net : Net} (hnet : NetWorks net) {acts : List Crowd.Act} {G : St} (hG : (begin n).exec net acts = some G)
    (hone : ∀ t d a, Happening.recv t d a ∈ G.log → OneAt (deviceOf n) G.log d) (happ : ∀ c p v, Happening.app c p v ∈ G.log → v.length < 256)
    {l0 l1 l2 l3 : List Happening} {t1 t2 : Nat} {d1 d2 : Bytes} {a1 a2 : Addr} {e1 : Happening} (hlog : G.log = l0 ++ .recv t1 d1 a1 :: (l1 ++ e1 :: (l2 ++ .recv t2 d2 a2 :: l3)))
    (h1 : DoneBy t1 e1) (hn1 : ∀ x ∈ l1, ¬ DoneBy t1 x) (hd : ∃ e ∈ l3, DoneBy t2 e)
    {m1 : Msg} (hm1 : readMsg (d1.take 1024) = some m1) (hw : m1.esv = 0x60 ∨ m1.esv = 0x61) {i : PProp} (hi : i ∈ m1.props)
    {m2 : Msg} (hm2 : readMsg (d2.take 1024) = some m2) (he2 : m2.esv = 0x62) (hto : m2.deoj = m1.deoj)
    {o : Obj} (ho : n.getObject (.int m1.deoj) = some o) (hset : (thingOf o).canSet i.code = true)
    (hsame : ∀ v, Happening.app m1.deoj i.code v ∈ Happening.recv t1 d1 a1 :: (l1 ++ e1 :: (l2 ++ .recv t2 d2 a2 :: l3)) ∨
      AskedFor (.recv t1 d1 a1 :: (l1 ++ e1 :: (l2 ++ .recv t2 d2 a2 :: l3))) m1.deoj i.code v → v = i.data)
    (hopen : ∀ e, Unfinished l0 e → ∀ v, AskedFor [e] m1.deoj i.code v → v = i.data) :
    ∃ x k1 k2, l3 = k1 ++ .sent t2 (((deviceOf n).ifs.take 1).map fun y =>
        ⟨y, a2, encode { tid := m2.tid, seoj := m2.deoj, deoj := m2.seoj, esv := if x.canGetAll m2.props then 0x72 else 0x52, props := x.values m2.props }⟩) :: k2 ∧
      (∀ y ∈ k1, ¬ DoneBy t2 y) ∧ ThingGrown G.log m1.deoj (thingOf o) x ∧ x.value i.code = if (thingOf o).canGet i.code then i.data else [] := by
  obtain ⟨h, hT⟩ := C166_one_at_a_time hobj hctl hshort hcan hnet hG hone happ
  obtain ⟨M1, M2, k1, k2, r1, r2, r3, r4, r6⟩ := tale_two hT hlog h1 hn1 hd
  have r5 : Grown G.log (M1.actual d1 a1).1 M2 := r6 G.log (by
    rintro e ⟨u, d, a, rfl, p, q, hpq, -⟩
    rw [hlog, hpq]; simp) (fun e he => by rw [hlog]; exact List.mem_append_right _ he)
  -- the writes that can take effect after this one
  obtain ⟨L, hL1, hL2, hL⟩ : ∃ L : List Happening, (∀ e, Unfinished l0 e → e ∈ L) ∧ (∀ e ∈ Happening.recv t1 d1 a1 :: (l1 ++ e1 :: (l2 ++ .recv t2 d2 a2 :: l3)), e ∈ L) ∧
      ∀ v, Happening.app m1.deoj i.code v ∈ L ∨ AskedFor L m1.deoj i.code v → v = i.data := by
    classical
    refine ⟨(Happening.recv t1 d1 a1 :: (l1 ++ e1 :: (l2 ++ .recv t2 d2 a2 :: l3))) ++ l0.filter (fun e => decide (Unfinished l0 e)), ?_, ?_, ?_⟩
    · intro e he
      refine List.mem_append_right _ (List.mem_filter.mpr ⟨?_, decide_eq_true he⟩)
      obtain ⟨u, d, a, rfl, p, q, hpq, -⟩ := he
      rw [hpq]; simp
    · intro e he; exact List.mem_append_left _ he
    · rintro v (hv | ⟨u, d, a, m, hr, hrest⟩)
      · rcases List.mem_append.mp hv with hv | hv
        · exact hsame v (.inl hv)
        · obtain ⟨_, _, _, hx, -⟩ := of_decide_eq_true (List.mem_filter.mp hv).2
          cases hx
      · rcases List.mem_append.mp hr with hr | hr
        · exact hsame v (.inr ⟨u, d, a, m, hr, hrest⟩)
        · exact hopen _ (of_decide_eq_true (List.mem_filter.mp hr).2) v ⟨u, d, a, m, List.mem_singleton.mpr rfl, hrest⟩
  have r7 := r6 L hL1 hL2
  have hmem1 : Happening.recv t1 d1 a1 ∈ G.log := by rw [hlog]; simp
  have h0 : m2.tid ≠ 0 := (hone t2 d2 a2 (by rw [hlog]; simp) m2 hm2).1
  have hg4 := r4.things m1.deoj
  rw [show (deviceOf n).things m1.deoj = some (thingOf o) by show (n.getObject (.int m1.deoj)).map thingOf = _; rw [ho]; rfl] at hg4
  have hserve : (thingOf o).serves = true := by show decide (o.handler ≠ .none) = true; rw [(hobj _ o ho).2]; decide
  cases hx1 : M1.things m1.deoj with
  | none => rw [hx1] at hg4; cases hg4
  | some x1 =>
    rw [hx1] at hg4
    cases hg4 with
    | some g1 =>
      have hg5 := r5.things m1.deoj
      rw [show (M1.actual d1 a1).1.things m1.deoj = some (x1.puts m1.props) by
        rw [actual_things hm1 hx1, thing_actual_write (g1.serves.trans hserve) hw]; show (if _ = _ then _ else _) = _; rw [if_pos rfl]] at hg5
      cases hx2 : M2.things m1.deoj with
      | none => rw [hx2] at hg5; cases hg5
      | some x =>
        rw [hx2] at hg5
        cases hg5 with
        | some g2 =>
          have ha := actual_get (r5.ctl.trans (by
            have := (actual_grown hmem1 r4).ctl
            exact this.trans hctl)) (a := a2) hm2 he2 h0 (hto.symm ▸ hx2) (g2.serves.trans (by
              have := (thing_actual_grown hmem1 hm1 g1).serves
              rw [thing_actual_write (g1.serves.trans hserve) hw] at this
              exact this.trans hserve))
          have hifs : M2.ifs = (deviceOf n).ifs := r5.ifs.trans (actual_grown hmem1 r4).ifs
          rw [ha, hifs] at r2
          have hgw : ThingGrown G.log m1.deoj (thingOf o) (x1.puts m1.props) := by
            have := thing_actual_grown hmem1 hm1 g1
            rwa [thing_actual_write (g1.serves.trans hserve) hw] at this
          refine ⟨x, k1, k2, r2, r3, ?_, ?_⟩
          · -- grown in two steps
            refine ⟨g2.serves.trans hgw.serves, fun p => ?_⟩
            have q1 := hgw.props p
            have q2 := g2.props p
            revert q1 q2
            generalize (thingOf o).props p = u, (x1.puts m1.props).props p = v, x.props p = w
            rintro (⟨s1, s2, s3⟩ | _) q2
            · cases q2 with
              | some q2 =>
                obtain ⟨t1, t2, t3⟩ := q2
                refine .some ⟨t1.trans s1, t2.trans s2, ?_⟩
                rcases t3 with t3 | t3 | ⟨t3, t4⟩
                · rw [t3]; exact s3
                · exact .inr (.inl t3)
                · exact .inr (.inr ⟨s2 ▸ t3, t4⟩)
            · cases q2; exact .none
          · -- the value
            have g3 : ThingGrown L m1.deoj (x1.puts m1.props) x := by
              have := r7.things m1.deoj
              rw [show (M1.actual d1 a1).1.things m1.deoj = some (x1.puts m1.props) by
                rw [actual_things hm1 hx1, thing_actual_write (g1.serves.trans hserve) hw]; show (if _ = _ then _ else _) = _; rw [if_pos rfl], hx2] at this
              cases this with
              | some h => exact h
            have hsame' : ∀ j ∈ m1.props, j.code = i.code → j.data = i.data := fun j hj hc =>
              hsame _ (.inr ⟨t1, d1, a1, m1, List.mem_cons_self, hm1, rfl, .inl ⟨hw, j, hj, hc, rfl⟩⟩)
            have q0 := g1.props i.code
            unfold Thing.canSet at hset
            unfold Thing.canGet
            revert q0 hset
            generalize hu : (thingOf o).props i.code = u
            intro hset q0
            cases hv : x1.props i.code with
            | none => rw [hv] at q0; cases q0; cases hset
            | some e1 =>
              rw [hv] at q0
              cases q0 with
              | some q0 =>
                rename_i e0
                obtain ⟨s1, s2, -⟩ := q0
                obtain ⟨e2, w1, w2, w3⟩ := puts_data m1.props x1 e1 hv (s2.trans hset) hsame' (.inl ⟨i, hi, rfl⟩)
                have q2 := g3.props i.code
                rw [w1] at q2
                unfold Thing.value
                cases hz : x.props i.code with
                | none => rw [hz] at q2; cases q2
                | some e3 =>
                  rw [hz] at q2
                  cases q2 with
                  | some q2 =>
                    obtain ⟨y1, y2, y3⟩ := q2
                    have hdata : e3.data = i.data := by
                      rcases y3 with y3 | y3 | ⟨-, y3⟩
                      · exact y3.trans w3
                      · exact hL _ (.inl y3)
                      · exact hL _ (.inr y3)
                    show (if e3.readable = true then e3.data else []) = if e0.readable = true then i.data else []
                    rw [y1, w2, s1, hdata]

/-- **C171.** The program of a device whose receiving threads work at the same time, under the conditions of C166, sets data of a property, and after this a request to read comes. If all that is
written to the property from then on is the same (`hsame`), and so is what datagrams ask for that are not done with when the program sets it (`hopen`), the read gives what the program has set. -/
theorem C171_program_sets {n : LocalNode} (hobj : ∀ c o, n.getObject (.int c) = some o → WellFormed o ∧ o.handler = .self_) (hctl : n.controller = false) (hshort : Short (deviceOf n))
    (hcan : CanSend n.mgr) {net : Net} (hnet : NetWorks net) {acts : List Crowd.Act} {G : St} (hG : (begin n).exec net acts = some G)
    (hone : ∀ t d a, Happening.recv t d a ∈ G.log → OneAt (deviceOf n) G.log d) (happ : ∀ c p v, Happening.app c p v ∈ G.log → v.length < 256)
    {l0 l2 l3 : List Happening} {c p : Int} {v : Bytes} {t : Nat} {d : Bytes} {a : Addr} (hlog : G.log = l0 ++ .app c p v :: (l2 ++ .recv t d a :: l3)) (hd : ∃ e ∈ l3, DoneBy t e)
    {m : Msg} (hm : readMsg (d.take 1024) = some m) (he : m.esv = 0x62) (hto : m.deoj = c) {o : Obj} (ho : n.getObject (.int c) = some o)
    (hsame : ∀ w, Happening.app c p w ∈ l2 ++ .recv t d a :: l3 ∨ AskedFor (l2 ++ .recv t d a :: l3) c p w → w = v)
    (hopen : ∀ e, Unfinished l0 e → ∀ w, AskedFor [e] c p w → w = v) :
    ∃ x k1 k2, l3 = k1 ++ .sent t (((deviceOf n).ifs.take 1).map fun y =>
        ⟨y, a, encode { tid := m.tid, seoj := m.deoj, deoj := m.seoj, esv := if x.canGetAll m.props then 0x72 else 0x52, props := x.values m.props }⟩) :: k2 ∧
      (∀ y ∈ k1, ¬ DoneBy t y) ∧ ThingGrown G.log c (thingOf o) x ∧ x.value p = if (thingOf o).canGet p then v else [] := by
  subst hto
  obtain ⟨h, hT⟩ := C166_one_at_a_time hobj hctl hshort hcan hnet hG hone happ
  obtain ⟨M1, M2, k1, k2, r2, r3, r4, r6⟩ := tale_app hT hlog hd
  have r5 : Grown G.log (M1.assign m.deoj p v) M2 := r6 G.log (by
    rintro e ⟨u, d, a, rfl, p, q, hpq, -⟩
    rw [hlog, hpq]; simp) (fun e he => by rw [hlog]; exact List.mem_append_right _ (List.mem_cons_of_mem _ he))
  obtain ⟨L, hL1, hL2, hL⟩ : ∃ L : List Happening, (∀ e, Unfinished l0 e → e ∈ L) ∧ (∀ e ∈ l2 ++ .recv t d a :: l3, e ∈ L) ∧
      ∀ w, Happening.app m.deoj p w ∈ L ∨ AskedFor L m.deoj p w → w = v := by
    classical
    refine ⟨(l2 ++ .recv t d a :: l3) ++ l0.filter (fun e => decide (Unfinished l0 e)), ?_, ?_, ?_⟩
    · intro e he
      refine List.mem_append_right _ (List.mem_filter.mpr ⟨?_, decide_eq_true he⟩)
      obtain ⟨u, d, a, rfl, p, q, hpq, -⟩ := he
      rw [hpq]; simp
    · intro e he; exact List.mem_append_left _ he
    · rintro w (hv | ⟨u, d', a', m', hr, hrest⟩)
      · rcases List.mem_append.mp hv with hv | hv
        · exact hsame w (.inl hv)
        · obtain ⟨_, _, _, hx, -⟩ := of_decide_eq_true (List.mem_filter.mp hv).2
          cases hx
      · rcases List.mem_append.mp hr with hr | hr
        · exact hsame w (.inr ⟨u, d', a', m', hr, hrest⟩)
        · exact hopen _ (of_decide_eq_true (List.mem_filter.mp hr).2) w ⟨u, d', a', m', List.mem_singleton.mpr rfl, hrest⟩
  have r7 := r6 L hL1 hL2
  have hmem : Happening.app m.deoj p v ∈ G.log := by rw [hlog]; simp
  have h0 : m.tid ≠ 0 := (hone t d a (by rw [hlog]; simp) m hm).1
  have hg4 := r4.things m.deoj
  rw [show (deviceOf n).things m.deoj = some (thingOf o) by show (n.getObject (.int m.deoj)).map thingOf = _; rw [ho]; rfl] at hg4
  have hserve : (thingOf o).serves = true := by show decide (o.handler ≠ .none) = true; rw [(hobj _ o ho).2]; decide
  cases hx1 : M1.things m.deoj with
  | none => rw [hx1] at hg4; cases hg4
  | some x1 =>
    rw [hx1] at hg4
    cases hg4 with
    | some g1 =>
      have hass : M1.assign m.deoj p v = M1.setThing m.deoj (x1.assign p v) := by unfold RefDevice.assign; rw [hx1]
      rw [hass] at r5 r7
      have hth : (M1.setThing m.deoj (x1.assign p v)).things m.deoj = some (x1.assign p v) := by show (if _ = _ then _ else _) = _; rw [if_pos rfl]
      have hg5 := r5.things m.deoj
      have hg7 := r7.things m.deoj
      rw [hth] at hg5 hg7
      cases hx2 : M2.things m.deoj with
      | none => rw [hx2] at hg5; cases hg5
      | some x =>
        rw [hx2] at hg5 hg7
        cases hg5 with
        | some g2 =>
        cases hg7 with
        | some g3 =>
          have hgw : ThingGrown G.log m.deoj (thingOf o) (x1.assign p v) := g1.assign hmem
          have ha := actual_get (r5.ctl.trans (r4.ctl.trans hctl)) (a := a) hm he h0 hx2 (g2.serves.trans (hgw.serves.trans hserve))
          have hifs : M2.ifs = (deviceOf n).ifs := r5.ifs.trans r4.ifs
          rw [ha, hifs] at r2
          refine ⟨x, k1, k2, r2, r3, ?_, ?_⟩
          · refine ⟨g2.serves.trans hgw.serves, fun q => ?_⟩
            have q1 := hgw.props q
            have q2 := g2.props q
            revert q1 q2
            generalize (thingOf o).props q = u, (x1.assign p v).props q = u', x.props q = w
            rintro (⟨s1, s2, s3⟩ | _) q2
            · cases q2 with
              | some q2 =>
                obtain ⟨t1, t2, t3⟩ := q2
                refine .some ⟨t1.trans s1, t2.trans s2, ?_⟩
                rcases t3 with t3 | t3 | ⟨t3, t4⟩
                · rw [t3]; exact s3
                · exact .inr (.inl t3)
                · exact .inr (.inr ⟨s2 ▸ t3, t4⟩)
            · cases q2; exact .none
          · have q0 := g1.props p
            have q3 := g3.props p
            rw [show (x1.assign p v).props p = (x1.props p).map fun e => { e with data := v } by show (if _ = _ then _ else _) = _; rw [if_pos rfl]] at q3
            unfold Thing.canGet Thing.value
            revert q0 q3
            generalize (thingOf o).props p = u, x1.props p = u', x.props p = w
            rintro (⟨s1, s2, -⟩ | _) q3
            · cases q3 with
              | some q3 =>
                obtain ⟨y1, y2, y3⟩ := q3
                rename_i e0 e1 e3
                have hdata : e3.data = v := by
                  rcases y3 with y3 | y3 | ⟨-, y3⟩
                  · exact y3
                  · exact hL _ (.inl y3)
                  · exact hL _ (.inr y3)
                show (if e3.readable = true then e3.data else []) = if e0.readable = true then v else []
                rw [y1, ← s1, hdata]
            · cases q3; rfl

/-- **C173.** A device whose receiving threads work at the same time, under the conditions of C166, is done with a read (`d1`) before another read of the same object comes (`d2`), at the same thread or
another. If nobody writes a property from the first read on (`hnone`), and no datagram that asks to write it is not done with when the first read comes (`hopen`), both answers give the same data for it. -/
theorem C173_same_again {n : LocalNode} (hobj : ∀ c o, n.getObject (.int c) = some o → WellFormed o ∧ o.handler = .self_) (hctl : n.controller = false) (hshort : Short (deviceOf n))
    (hcan : CanSend n.mgr) {net : Net} (hnet : NetWorks net) {acts : List Crowd.Act} {G : St} (hG : (begin n).exec net acts = some G)
    (hone : ∀ t d a, Happening.recv t d a ∈ G.log → OneAt (deviceOf n) G.log d) (happ : ∀ c p v, Happening.app c p v ∈ G.log → v.length < 256)
    {l0 l1 l2 l3 : List Happening} {t1 t2 : Nat} {d1 d2 : Bytes} {a1 a2 : Addr} {e1 : Happening} (hlog : G.log = l0 ++ .recv t1 d1 a1 :: (l1 ++ e1 :: (l2 ++ .recv t2 d2 a2 :: l3)))
    (h1 : DoneBy t1 e1) (hn1 : ∀ x ∈ l1, ¬ DoneBy t1 x) (hd : ∃ e ∈ l3, DoneBy t2 e)
    {m1 : Msg} (hm1 : readMsg (d1.take 1024) = some m1) (he1 : m1.esv = 0x62) {m2 : Msg} (hm2 : readMsg (d2.take 1024) = some m2) (he2 : m2.esv = 0x62) (hto : m2.deoj = m1.deoj)
    {o : Obj} (ho : n.getObject (.int m1.deoj) = some o) {p : Int}
    (hnone : ∀ v, ¬ (Happening.app m1.deoj p v ∈ Happening.recv t1 d1 a1 :: (l1 ++ e1 :: (l2 ++ .recv t2 d2 a2 :: l3)) ∨
      AskedFor (.recv t1 d1 a1 :: (l1 ++ e1 :: (l2 ++ .recv t2 d2 a2 :: l3))) m1.deoj p v))
    (hopen : ∀ e, Unfinished l0 e → ∀ v, ¬ AskedFor [e] m1.deoj p v) :
    ∃ x y k1 k2, e1 = .sent t1 (((deviceOf n).ifs.take 1).map fun i =>
        ⟨i, a1, encode { tid := m1.tid, seoj := m1.deoj, deoj := m1.seoj, esv := if x.canGetAll m1.props then 0x72 else 0x52, props := x.values m1.props }⟩) ∧
      l3 = k1 ++ .sent t2 (((deviceOf n).ifs.take 1).map fun i =>
        ⟨i, a2, encode { tid := m2.tid, seoj := m2.deoj, deoj := m2.seoj, esv := if y.canGetAll m2.props then 0x72 else 0x52, props := y.values m2.props }⟩) :: k2 ∧
      (∀ z ∈ k1, ¬ DoneBy t2 z) ∧ ThingGrown G.log m1.deoj (thingOf o) x ∧ ThingGrown G.log m1.deoj x y ∧ y.value p = x.value p := by
  obtain ⟨h, hT⟩ := C166_one_at_a_time hobj hctl hshort hcan hnet hG hone happ
  obtain ⟨M1, M2, k1, k2, r1, r2, r3, r4, r6⟩ := tale_two hT hlog h1 hn1 hd
  have r5 : Grown G.log (M1.actual d1 a1).1 M2 := r6 G.log (by
    rintro e ⟨u, d, a, rfl, p, q, hpq, -⟩
    rw [hlog, hpq]; simp) (fun e he => by rw [hlog]; exact List.mem_append_right _ he)
  obtain ⟨L, hL1, hL2, hL⟩ : ∃ L : List Happening, (∀ e, Unfinished l0 e → e ∈ L) ∧ (∀ e ∈ Happening.recv t1 d1 a1 :: (l1 ++ e1 :: (l2 ++ .recv t2 d2 a2 :: l3)), e ∈ L) ∧
      ∀ v, ¬ (Happening.app m1.deoj p v ∈ L ∨ AskedFor L m1.deoj p v) := by
    classical
    refine ⟨(Happening.recv t1 d1 a1 :: (l1 ++ e1 :: (l2 ++ .recv t2 d2 a2 :: l3))) ++ l0.filter (fun e => decide (Unfinished l0 e)), ?_, ?_, ?_⟩
    · intro e he
      refine List.mem_append_right _ (List.mem_filter.mpr ⟨?_, decide_eq_true he⟩)
      obtain ⟨u, d, a, rfl, p, q, hpq, -⟩ := he
      rw [hpq]; simp
    · intro e he; exact List.mem_append_left _ he
    · rintro v (hv | ⟨u, d, a, m, hr, hrest⟩)
      · rcases List.mem_append.mp hv with hv | hv
        · exact hnone v (.inl hv)
        · obtain ⟨_, _, _, hx, -⟩ := of_decide_eq_true (List.mem_filter.mp hv).2
          cases hx
      · rcases List.mem_append.mp hr with hr | hr
        · exact hnone v (.inr ⟨u, d, a, m, hr, hrest⟩)
        · exact hopen _ (of_decide_eq_true (List.mem_filter.mp hr).2) v ⟨u, d, a, m, List.mem_singleton.mpr rfl, hrest⟩
  have r7 := r6 L hL1 hL2
  have hmem1 : Happening.recv t1 d1 a1 ∈ G.log := by rw [hlog]; simp
  have h01 : m1.tid ≠ 0 := (hone t1 d1 a1 hmem1 m1 hm1).1
  have h02 : m2.tid ≠ 0 := (hone t2 d2 a2 (by rw [hlog]; simp) m2 hm2).1
  have hg4 := r4.things m1.deoj
  rw [show (deviceOf n).things m1.deoj = some (thingOf o) by show (n.getObject (.int m1.deoj)).map thingOf = _; rw [ho]; rfl] at hg4
  have hserve : (thingOf o).serves = true := by show decide (o.handler ≠ .none) = true; rw [(hobj _ o ho).2]; decide
  cases hx1 : M1.things m1.deoj with
  | none => rw [hx1] at hg4; cases hg4
  | some x1 =>
    rw [hx1] at hg4
    cases hg4 with
    | some g1 =>
      have hsame : (x1.actual m1).1 = x1 := by
        unfold Thing.actual
        rw [if_neg (by rw [g1.serves, hserve]; simp), if_neg (by rw [he1]; decide), if_neg (by rw [he1]; decide), if_pos he1]
      have hth : (M1.actual d1 a1).1.things m1.deoj = some x1 := by
        rw [actual_things hm1 hx1, hsame]; show (if _ = _ then _ else _) = _; rw [if_pos rfl]
      have hg5 := r5.things m1.deoj
      have hg7 := r7.things m1.deoj
      rw [hth] at hg5 hg7
      cases hx2 : M2.things m1.deoj with
      | none => rw [hx2] at hg5; cases hg5
      | some y =>
        rw [hx2] at hg5 hg7
        cases hg5 with
        | some g2 =>
        cases hg7 with
        | some g3 =>
          have ha1 := actual_get (r4.ctl.trans hctl) (a := a1) hm1 he1 h01 hx1 (g1.serves.trans hserve)
          have ha2 := actual_get (r5.ctl.trans ((actual_grown hmem1 r4).ctl.trans hctl)) (a := a2) hm2 he2 h02 (hto.symm ▸ hx2) (g2.serves.trans (g1.serves.trans hserve))
          have hifs : M2.ifs = (deviceOf n).ifs := r5.ifs.trans (actual_grown hmem1 r4).ifs
          rw [ha1, r4.ifs] at r1
          rw [ha2, hifs] at r2
          refine ⟨x1, y, k1, k2, r1, r2, r3, g1, g2, ?_⟩
          have q3 := g3.props p
          unfold Thing.value
          revert q3
          generalize x1.props p = u, y.props p = w
          rintro (⟨y1, y2, y3⟩ | _)
          · rename_i e e'
            have hdata : e'.data = e.data := by
              rcases y3 with y3 | y3 | ⟨-, y3⟩
              · exact y3
              · exact absurd (.inl y3) (hL _)
              · exact absurd (.inr y3) (hL _)
            show (if e'.readable = true then e'.data else []) = if e.readable = true then e.data else []
            rw [y1, hdata]
          · rfl

/-! ### Answers that do not depend on values -/

theorem puts_props_congr : ∀ (is : List PProp) {t t' : Thing} {p : Int}, t'.props p = t.props p → (t'.puts is).props p = (t.puts is).props p
  | [], _, _, _, h => h
  | i :: is, t, t', p, h => by
    refine puts_props_congr is (t := t.put i) (t' := t'.put i) ?_
    show (if p = i.code then _ else _) = (if p = i.code then _ else _)
    rw [h]

theorem Spec.ThingGrown.fixed {log : List Happening} {c : Int} {t t' : Thing} (h : ThingGrown log c t t') {m : Msg} (hs : ∀ i ∈ asksToRead m, t'.props i.code = t.props i.code) :
    (t'.actual m).2 = (t.actual m).2 := by
  have hk : ∀ p, t'.knows p = t.knows p ∧ t'.canSet p = t.canSet p ∧ t'.canGet p = t.canGet p := by
    intro p
    have := h.props p
    revert this
    unfold Thing.knows Thing.canSet Thing.canGet
    generalize t.props p = x, t'.props p = y
    rintro (⟨k1, k2, -⟩ | _)
    · exact ⟨rfl, k2, k1⟩
    · exact ⟨rfl, rfl, rfl⟩
  have hset : ∀ is, t'.canSetAll is = t.canSetAll is := by
    intro is
    unfold Thing.canSetAll
    exact congrArg (fun f => is.all f) (funext fun i => (hk i.code).2.1)
  have hget : ∀ is, t'.canGetAll is = t.canGetAll is := by
    intro is
    unfold Thing.canGetAll
    exact congrArg (fun f => is.all f) (funext fun i => (hk i.code).2.2)
  have hknow : (m.getProps.all fun i => t'.knows i.code) = m.getProps.all fun i => t.knows i.code :=
    congrArg (fun f => m.getProps.all f) (funext fun i => (hk i.code).1)
  have href : ∀ is, t'.refused is = t.refused is := by
    intro is
    unfold Thing.refused
    refine List.map_congr_left fun i _ => ?_
    rw [(hk i.code).1, (hk i.code).2.1]
  have hval : m.esv = 0x62 → t'.values m.props = t.values m.props := by
    intro he
    unfold Thing.values
    refine List.map_congr_left fun i hi => ?_
    unfold Thing.value
    rw [hs i (by unfold asksToRead; rw [if_pos he]; exact hi)]
  have hval' : m.esv = 0x6E → (t'.puts m.setProps).values m.getProps = (t.puts m.setProps).values m.getProps := by
    intro he
    unfold Thing.values
    refine List.map_congr_left fun i hi => ?_
    unfold Thing.value
    rw [puts_props_congr m.setProps (hs i (by unfold asksToRead; rw [if_neg (by rw [he]; decide), if_pos he]; exact hi))]
  unfold Thing.actual
  simp only [h.serves, hset, hget, hknow, href]
  split
  · rfl
  split
  · rfl
  split
  · rfl
  split
  · rename_i he
    simp only [hval he]
  split
  · rfl
  split
  · rename_i he
    simp only [hval' he]
    split <;> rfl
  split <;> rfl

/-- The answer of an object has the number of the request. -/
theorem thing_actual_tid {t : Thing} {m r : Msg} (h : (t.actual m).2.1 = some r) : r.tid = m.tid := by
  revert h
  unfold Thing.actual
  dsimp only
  split
  · rintro ⟨⟩
  split
  · dsimp only
    split
    · rintro ⟨⟩
    · rintro ⟨⟩; rfl
  split
  · rintro ⟨⟩; rfl
  split
  · rintro ⟨⟩; rfl
  split
  · rintro ⟨⟩; rfl
  split
  · split
    · rintro ⟨⟩; rfl
    · rintro ⟨⟩
  split
  · dsimp only
    split
    · rintro ⟨⟩; rfl
    · rintro ⟨⟩
  · rintro ⟨⟩

/-- What a device says is the same for all it can become in which the properties that are read are the same. -/
theorem Spec.Grown.fixed {log : List Happening} {D D' : RefDevice} (h : Grown log D D') {d : Bytes} {a : Addr} (h0 : ∀ m, readMsg (d.take 1024) = some m → m.tid ≠ 0)
    (hm : ∀ m, readMsg (d.take 1024) = some m → ∀ t t', D.things m.deoj = some t → D'.things m.deoj = some t' → ThingGrown log m.deoj t t' → ∀ i ∈ asksToRead m, t'.props i.code = t.props i.code) :
    (D'.actual d a).2 = (D.actual d a).2 := by
  unfold RefDevice.actual
  cases hr : readMsg (d.take 1024) with
  | none => rfl
  | some m =>
    have h0 := h0 m hr
    have hm := hm m hr
    have hth := h.things m.deoj
    simp only
    revert hth hm
    generalize D.things m.deoj = x, D'.things m.deoj = y
    rintro hm (k | _)
    · rename_i t t'
      have hq := k.fixed (hm t t' rfl rfl k)
      simp only [hq]
      cases hr1 : (t.actual m).2.1 with
      | none => rfl
      | some r =>
        have h1 := thing_actual_tid hr1
        simp only [show (D'.setThing m.deoj (t'.actual m).1).ctl = (D.setThing m.deoj (t.actual m).1).ctl from h.ctl]
        have hz : ∀ b : Bool, (if b then { r with seoj := 0x0EF001 } else r : Msg).tid ≠ 0 := by
          intro b; cases b
          · show r.tid ≠ 0; rw [h1]; exact h0
          · show r.tid ≠ 0; rw [h1]; exact h0
        rw [if_neg (hz _), if_neg (hz _)]
        unfold RefDevice.sends
        rw [show (D'.setThing m.deoj (t'.actual m).1).ifs = (D.setThing m.deoj (t.actual m).1).ifs from h.ifs]
    · rfl

/-- **C172.** What a device whose receiving threads work at the same time, under the conditions of C166, says to a datagram that does not read what somebody changes, and whether the thread survives it, is
what the device would have said in the beginning, alone, whatever happened before and whatever the other threads and the program do meanwhile. It says it in the time of C169. All datagrams that
read nothing are of this kind. -/
theorem C172_alone {n : LocalNode} (hobj : ∀ c o, n.getObject (.int c) = some o → WellFormed o ∧ o.handler = .self_) (hctl : n.controller = false) (hshort : Short (deviceOf n))
    (hcan : CanSend n.mgr) {net : Net} (hnet : NetWorks net) {before after : List Crowd.Act} {G G' : St} {t : Nat} {d : Bytes} {a : Addr} (hG : (begin n).exec net before = some G)
    (hG' : G.exec net (.arrive t d a :: after) = some G') (hone : ∀ t d a, Happening.recv t d a ∈ G'.log → OneAt (deviceOf n) G'.log d)
    (happ : ∀ c p v, Happening.app c p v ∈ G'.log → v.length < 256) (hturns : 2 * namedIn d + 2 ≤ turns t after ∨ doing t G'.log ≠ .working)
    (hsteady : ∀ m, readMsg (d.take 1024) = some m → ∀ i ∈ asksToRead m, ¬ MayChangeAt (deviceOf n) G'.log m.deoj i.code) :
    ∃ l1 l2, G'.log = G.log ++ .recv t d a :: (l1 ++ doneWith t ((deviceOf n).actual d a).2 :: l2) ∧ ∀ x ∈ l1, ¬ DoneBy t x := by
  obtain ⟨D, l1, l2, h1, h2, h3⟩ := C169_answer hobj hctl hshort hcan hnet hG hG' hone happ hturns
  have hsub : ∀ e ∈ G.log ++ Happening.recv t d a :: l1, e ∈ G'.log := by
    intro e hm
    rw [h1]
    rcases List.mem_append.mp hm with hm | hm
    · exact List.mem_append_left _ hm
    · rcases List.mem_cons.mp hm with rfl | hm
      · exact List.mem_append_right _ List.mem_cons_self
      · exact List.mem_append_right _ (List.mem_cons_of_mem _ (List.mem_append_left _ hm))
  have hf := h3.fixed (a := a) (fun m hm => (hone t d a (by rw [h1]; simp) m hm).1) (by
    intro m hm x x' hth _ hg i hi
    have hns := hsteady m hm i hi
    have hp := hg.props i.code
    have hset : ∀ e, x.props i.code = some e → e.writable = true → x.canSet i.code = true := by
      intro e h1 h2
      unfold Thing.canSet
      rw [h1]; exact h2
    revert hset hp
    generalize x.props i.code = y, x'.props i.code = y'
    rintro (⟨k1, k2, k3⟩ | _) hset
    · rename_i e e'
      have hd : e'.data = e.data := by
        rcases k3 with k | k | ⟨k, u, d', a', w, r1, r2, r3, r4⟩
        · exact k
        · exact absurd (.inr ⟨_, hsub _ k⟩) hns
        · refine absurd (.inl ⟨_, hth, hset e rfl k, u, d', a', w, hsub _ r1, r2, r3, ?_⟩) hns
          rcases r4 with ⟨r4, j, j1, j2, -⟩ | ⟨r4, j, j1, j2, -⟩
          · exact .inl ⟨r4, j, j1, j2⟩
          · exact .inr ⟨r4, j, j1, j2⟩
      cases e; cases e'
      simp only at k1 k2 hd
      rw [k1, k2, hd]
    · rfl)
  exact ⟨l1, l2, hf ▸ h1, h2⟩

/-- **C172.** So a request to write with confirmation is answered in this time, once, to the one who asked and with the number of the request: with 0x71 if all the properties can be written, and else
with 0x50. -/
theorem C172_confirmed {n : LocalNode} (hobj : ∀ c o, n.getObject (.int c) = some o → WellFormed o ∧ o.handler = .self_) (hctl : n.controller = false) (hshort : Short (deviceOf n))
    (hcan : CanSend n.mgr) {net : Net} (hnet : NetWorks net) {before after : List Crowd.Act} {G G' : St} {t : Nat} {d : Bytes} {a : Addr} (hG : (begin n).exec net before = some G)
    (hG' : G.exec net (.arrive t d a :: after) = some G') (hone : ∀ t d a, Happening.recv t d a ∈ G'.log → OneAt (deviceOf n) G'.log d)
    (happ : ∀ c p v, Happening.app c p v ∈ G'.log → v.length < 256) (hturns : 2 * namedIn d + 2 ≤ turns t after ∨ doing t G'.log ≠ .working)
    {m : Msg} (hm : readMsg (d.take 1024) = some m) (he : m.esv = 0x61) {o : Obj} (ho : n.getObject (.int m.deoj) = some o) :
    ∃ l1 l2, G'.log = G.log ++ .recv t d a :: (l1 ++ .sent t (((deviceOf n).ifs.take 1).map fun i =>
        ⟨i, a, encode { tid := m.tid, seoj := m.deoj, deoj := m.seoj, esv := if (thingOf o).canSetAll m.props then 0x71 else 0x50, props := (thingOf o).refused m.props }⟩) :: l2) ∧
      ∀ x ∈ l1, ¬ DoneBy t x := by
  obtain ⟨l1, l2, h1, h2⟩ := C172_alone hobj hctl hshort hcan hnet hG hG' hone happ hturns (fun m' hm' i hi => by
    rw [hm] at hm'; injection hm' with hm'; subst hm'
    unfold asksToRead at hi
    rw [if_neg (by rw [he]; decide), if_neg (by rw [he]; decide)] at hi
    cases hi)
  have h0 : m.tid ≠ 0 := (hone t d a (by rw [h1]; simp) m hm).1
  have hs : (thingOf o).serves = true := by show decide (o.handler ≠ .none) = true; rw [(hobj _ o ho).2]; decide
  have ht : (deviceOf n).things m.deoj = some (thingOf o) := by show (n.getObject (.int m.deoj)).map thingOf = _; rw [ho]; rfl
  have ha : (thingOf o).actual m = ((thingOf o).puts m.props, some { tid := m.tid, seoj := m.deoj, deoj := m.seoj, esv := if (thingOf o).canSetAll m.props then 0x71 else 0x50, props := (thingOf o).refused m.props }, true) := by
    unfold Thing.actual
    rw [if_neg (by rw [hs]; simp), if_neg (by rw [he]; decide), if_pos he]
  have hq : ((deviceOf n).actual d a).2 = (((deviceOf n).ifs.take 1).map fun i =>
      ⟨i, a, encode { tid := m.tid, seoj := m.deoj, deoj := m.seoj, esv := if (thingOf o).canSetAll m.props then 0x71 else 0x50, props := (thingOf o).refused m.props }⟩, true) := by
    unfold RefDevice.actual
    simp only [hm, ht, ha]
    have hc' : ((deviceOf n).setThing m.deoj ((thingOf o).puts m.props)).ctl = false := hctl
    simp only [hc', Bool.false_eq_true, if_false]
    rw [if_neg h0]
    show (RefDevice.sends _ _ a, true) = _
    unfold RefDevice.sends
    rw [if_neg (by show ¬ ((if (thingOf o).canSetAll m.props then (0x71 : Int) else 0x50) = 0x73); split <;> decide)]
    rfl
  rw [hq] at h1
  exact ⟨l1, l2, h1, h2⟩

/-! ### An execution -/

/-- A read of a property nobody writes, and of it again. -/
def exTimelyGet : Msg := exTo 0x62 [⟨0x81, []⟩, ⟨0x81, []⟩] 9

def exTimelyBefore : List Crowd.Act := [.arrive 1 (encode exCrowdSet) exAsker, .run 1]
def exTimelyAfter : List Crowd.Act := [.run 0, .app 0x029101 0x80 [0x32], .run 0, .run 1, .arrive 2 [0x10] exAsker, .run 0, .run 1, .run 0, .run 0, .run 0, .run 1]

/-- The hypotheses of C169: while a write is done and the program sets the same property, another thread reads another, twice. -/
example : ∃ G G' o, (begin exRunning).exec okNet exTimelyBefore = some G ∧ G.exec okNet (.arrive 0 (encode exTimelyGet) exAsker :: exTimelyAfter) = some G' ∧
    (∀ t d a, Happening.recv t d a ∈ G'.log → OneAt (deviceOf exRunning) G'.log d) ∧ (∀ c p v, Happening.app c p v ∈ G'.log → v.length < 256) ∧
    2 * namedIn (encode exTimelyGet) + 2 ≤ turns 0 exTimelyAfter ∧ readMsg ((encode exTimelyGet).take 1024) = some exTimelyGet ∧ exTimelyGet.esv = 0x62 ∧
    exRunning.getObject (.int exTimelyGet.deoj) = some o ∧ (∀ i ∈ exTimelyGet.props, ¬ MayChangeAt (deviceOf exRunning) G'.log exTimelyGet.deoj i.code) ∧
    .sent 0 [⟨"10.0.0.2", exAsker, encode { tid := 9, seoj := 0x029101, deoj := 0x05FF01, esv := 0x72, props := [⟨0x81, [7]⟩, ⟨0x81, [7]⟩] }⟩] ∈ G'.log := by
  have h : (((begin exRunning).exec okNet exTimelyBefore).bind fun G => (G.exec okNet (.arrive 0 (encode exTimelyGet) exAsker :: exTimelyAfter)).map fun G => G.log) =
      some [.recv 1 (encode exCrowdSet) exAsker, .recv 0 (encode exTimelyGet) exAsker, .app 0x029101 0x80 [0x32], .recv 2 [0x10] exAsker, .ended 2,
        .sent 0 [⟨"10.0.0.2", exAsker, encode { tid := 9, seoj := 0x029101, deoj := 0x05FF01, esv := 0x72, props := [⟨0x81, [7]⟩, ⟨0x81, [7]⟩] }⟩],
        .sent 1 [⟨"10.0.0.2", exAsker, encode { tid := 6, seoj := 0x029101, deoj := 0x05FF01, esv := 0x71, props := [⟨0x80, []⟩] }⟩]] := by decide +kernel
  obtain ⟨G, h1, h⟩ := Option.bind_eq_some_iff.mp h
  obtain ⟨G', h2, h3⟩ := Option.map_eq_some_iff.mp h
  have hobj : (exRunning.getObject (.int exTimelyGet.deoj)).isSome = true := by decide +kernel
  obtain ⟨o, ho⟩ := Option.isSome_iff_exists.mp hobj
  have hsteady : ∀ p, p ≠ 0x80 → ¬ MayChangeAt (deviceOf exRunning) G'.log 0x029101 p := by
    rintro p hp (⟨-, -, -, u, d, a, m, hr, hm, -, hw⟩ | ⟨v, hv⟩)
    · rw [h3] at hr
      simp only [List.mem_cons, List.not_mem_nil, or_false, reduceCtorEq, Happening.recv.injEq, false_or] at hr
      rcases hr with ⟨-, rfl, -⟩ | ⟨-, rfl, -⟩ | ⟨-, rfl, -⟩
      · rw [show readMsg ((encode exCrowdSet).take 1024) = some exCrowdSet by decide +kernel] at hm
        injection hm with hm
        subst hm
        rcases hw with ⟨-, i, hi, rfl⟩ | ⟨hw, -⟩
        · rw [List.mem_singleton.mp (show i ∈ [(⟨0x80, [0x31]⟩ : PProp)] from hi)] at hp
          exact hp rfl
        · exact absurd hw (by decide)
      · rw [show readMsg ((encode exTimelyGet).take 1024) = some exTimelyGet by decide +kernel] at hm
        injection hm with hm
        subst hm
        rcases hw with ⟨hw, -⟩ | ⟨hw, -⟩ <;> exact absurd hw (by decide)
      · rw [show readMsg (([0x10] : Bytes).take 1024) = none by decide +kernel] at hm
        cases hm
    · rw [h3] at hv
      simp only [List.mem_cons, List.not_mem_nil, or_false, reduceCtorEq, Happening.app.injEq, false_or] at hv
      exact hp hv.2.1
  refine ⟨G, G', o, h1, h2, ?_, ?_, by decide +kernel, by decide +kernel, rfl, ho, ?_, ?_⟩
  · intro t d a hr m hm
    rw [h3] at hr
    simp only [List.mem_cons, List.not_mem_nil, or_false, reduceCtorEq, Happening.recv.injEq, false_or] at hr
    rcases hr with ⟨-, rfl, -⟩ | ⟨-, rfl, -⟩ | ⟨-, rfl, -⟩
    · rw [show readMsg ((encode exCrowdSet).take 1024) = some exCrowdSet by decide +kernel] at hm
      injection hm with hm
      subst hm
      exact ⟨by decide, List.pairwise_singleton _ _⟩
    · rw [show readMsg ((encode exTimelyGet).take 1024) = some exTimelyGet by decide +kernel] at hm
      injection hm with hm
      subst hm
      refine ⟨by decide, ?_⟩
      show List.Pairwise _ [(⟨0x81, []⟩ : PProp), ⟨0x81, []⟩]
      rw [List.pairwise_pair]
      exact fun h => hsteady 0x81 (by decide) h.1
    · rw [show readMsg (([0x10] : Bytes).take 1024) = none by decide +kernel] at hm
      cases hm
  · intro c p v hv
    rw [h3] at hv
    simp only [List.mem_cons, List.not_mem_nil, or_false, reduceCtorEq, Happening.app.injEq, false_or] at hv
    rw [hv.2.2]
    decide
  · intro i hi
    rcases List.mem_pair.mp (show i ∈ [(⟨0x81, []⟩ : PProp), ⟨0x81, []⟩] from hi) with rfl | rfl
    · exact hsteady 0x81 (by decide)
    · exact hsteady 0x81 (by decide)
  · rw [h3]; simp

def exBackOld : Msg := exTo 0x60 [⟨0x80, [0x44]⟩] 5

/-- Another write; the write, done with; the same write again, at another thread, in the middle of which the property is read. -/
def exBackActs : List Crowd.Act := [.arrive 1 (encode exBackOld) exAsker, .run 1, .run 1, .run 1, .run 1, .arrive 1 (encode exCrowdSet) exAsker, .run 1, .run 1, .run 1, .run 1,
  .arrive 2 (encode exCrowdSet) exAsker, .run 2, .arrive 0 (encode exCrowdGet) exAsker, .run 0, .run 0, .run 0, .run 2, .run 2, .run 0, .run 2, .run 0, .run 0]

def exBackPast : List Happening := [.recv 1 (encode exBackOld) exAsker, .sent 1 []]
def exBackDone (t : Nat) : Happening := .sent t [⟨"10.0.0.2", exAsker, encode { tid := 6, seoj := 0x029101, deoj := 0x05FF01, esv := 0x71, props := [⟨0x80, []⟩] }⟩]
def exBackAnswer : Happening := .sent 0 [⟨"10.0.0.2", exAsker, encode { tid := 7, seoj := 0x029101, deoj := 0x05FF01, esv := 0x72, props := [⟨0x81, [7]⟩, ⟨0x80, [0x31]⟩] }⟩]
def exBackRest : List Happening := .recv 1 (encode exCrowdSet) exAsker :: ([] ++ exBackDone 1 :: ([.recv 2 (encode exCrowdSet) exAsker] ++ .recv 0 (encode exCrowdGet) exAsker :: [exBackDone 2, exBackAnswer]))

/-- The hypotheses of C170. -/
example : ∃ G o, (begin exRunning).exec okNet exBackActs = some G ∧ (∀ t d a, Happening.recv t d a ∈ G.log → OneAt (deviceOf exRunning) G.log d) ∧
    (∀ c p v, Happening.app c p v ∈ G.log → v.length < 256) ∧ G.log = exBackPast ++ exBackRest ∧
    DoneBy 1 (exBackDone 1) ∧ DoneBy 0 exBackAnswer ∧ readMsg ((encode exCrowdSet).take 1024) = some exCrowdSet ∧ exCrowdSet.esv = 0x61 ∧ exCrowdSet.props = [⟨0x80, [0x31]⟩] ∧
    readMsg ((encode exCrowdGet).take 1024) = some exCrowdGet ∧ exCrowdGet.esv = 0x62 ∧ exCrowdGet.deoj = exCrowdSet.deoj ∧ exRunning.getObject (.int exCrowdSet.deoj) = some o ∧
    (thingOf o).canSet 0x80 = true ∧ (∀ v, Happening.app exCrowdSet.deoj 0x80 v ∈ exBackRest ∨ AskedFor exBackRest exCrowdSet.deoj 0x80 v → v = [0x31]) ∧
    (∀ e, Unfinished exBackPast e → ∀ v, AskedFor [e] exCrowdSet.deoj 0x80 v → v = [0x31]) := by
  have h : ((begin exRunning).exec okNet exBackActs).map (fun G => G.log) = some (exBackPast ++ exBackRest) := by decide +kernel
  obtain ⟨G, h1, h3⟩ := Option.map_eq_some_iff.mp h
  have hobj : (exRunning.getObject (.int exCrowdSet.deoj)).map (fun o => (thingOf o).canSet 0x80) = some true := by decide +kernel
  obtain ⟨o, ho, hset⟩ := Option.map_eq_some_iff.mp hobj
  have rset : readMsg ((encode exCrowdSet).take 1024) = some exCrowdSet := by decide +kernel
  have rget : readMsg ((encode exCrowdGet).take 1024) = some exCrowdGet := by decide +kernel
  have rold : readMsg ((encode exBackOld).take 1024) = some exBackOld := by decide +kernel
  have hrest : ∀ t d a, Happening.recv t d a ∈ exBackRest → d = encode exCrowdSet ∨ d = encode exCrowdGet := by
    intro t d a hr
    simp only [exBackRest, exBackDone, exBackAnswer, List.nil_append, List.cons_append, List.mem_cons, List.not_mem_nil, or_false, reduceCtorEq, Happening.recv.injEq, false_or] at hr
    rcases hr with ⟨-, rfl, -⟩ | ⟨-, rfl, -⟩ | ⟨-, rfl, -⟩
    · exact .inl rfl
    · exact .inl rfl
    · exact .inr rfl
  have hrecv : ∀ t d a, Happening.recv t d a ∈ G.log → d = encode exCrowdSet ∨ d = encode exCrowdGet ∨ d = encode exBackOld := by
    intro t d a hr
    rw [h3] at hr
    rcases List.mem_append.mp hr with hr | hr
    · simp only [exBackPast, List.mem_cons, List.not_mem_nil, or_false, reduceCtorEq, Happening.recv.injEq] at hr
      exact .inr (.inr hr.2.1)
    · rcases hrest t d a hr with h | h
      · exact .inl h
      · exact .inr (.inl h)
  have hnoapp : ∀ c p v, Happening.app c p v ∉ exBackPast ++ exBackRest := by
    intro c p v hv
    simp [exBackPast, exBackRest, exBackDone, exBackAnswer] at hv
  have hro : ¬ MayChangeAt (deviceOf exRunning) G.log 0x029101 0x81 := by
    rintro (⟨t, k1, k2, -⟩ | ⟨v, hv⟩)
    · have : ((deviceOf exRunning).things 0x029101).map (fun t => t.canSet 0x81) = some false := by decide +kernel
      rw [k1] at this
      rw [Option.map_some, k2] at this
      cases this
    · exact hnoapp _ _ _ (h3 ▸ hv)
  refine ⟨G, o, h1, ?_, fun c p v hv => absurd (h3 ▸ hv) (hnoapp c p v), h3, .inr ⟨_, rfl⟩, .inr ⟨_, rfl⟩, rset, rfl, rfl, rget, rfl, rfl, ho, hset, ?_, ?_⟩
  · intro t d a hr m hm
    rcases hrecv t d a hr with rfl | rfl | rfl
    · rw [rset] at hm
      injection hm with hm
      subst hm
      exact ⟨by decide, List.pairwise_singleton _ _⟩
    · rw [rget] at hm
      injection hm with hm
      subst hm
      refine ⟨by decide, ?_⟩
      show List.Pairwise _ [(⟨0x81, []⟩ : PProp), ⟨0x80, []⟩]
      rw [List.pairwise_pair]
      exact fun h => hro h.1
    · rw [rold] at hm
      injection hm with hm
      subst hm
      exact ⟨by decide, List.pairwise_singleton _ _⟩
  · rintro v (hv | ⟨u, d, a, m, hr, hm, -, hw⟩)
    · exact absurd (List.mem_append_right _ hv) (hnoapp _ _ _)
    · rcases hrest u d a hr with rfl | rfl
      · rw [rset] at hm
        injection hm with hm
        subst hm
        rcases hw with ⟨-, i, hi, -, rfl⟩ | ⟨hw, -⟩
        · rw [List.mem_singleton.mp (show i ∈ [(⟨0x80, [0x31]⟩ : PProp)] from hi)]
        · exact absurd hw (by decide)
      · rw [rget] at hm
        injection hm with hm
        subst hm
        rcases hw with ⟨hw, -⟩ | ⟨hw, -⟩ <;> exact absurd hw (by decide)
  · -- the first write is done with
    rintro e ⟨u, d, a, rfl, p, q, hpq, hn⟩
    exfalso
    rcases p with _ | ⟨y, _ | ⟨y', p⟩⟩
    · injection hpq with e1 e2
      injection e1 with e1
      exact hn (.sent 1 []) (by rw [← e2]; simp) (.inr ⟨[], by rw [e1]⟩)
    · injection hpq with _ e2
      injection e2 with e2
      cases e2
    · injection hpq with _ e2
      injection e2 with _ e2
      cases p <;> cases e2

/-! ### What the program sets -/

/-- A datagram of those above satisfies the condition of C166, in an execution in which only property 0x80 is written. -/
theorem exBack_one {log : List Happening} (happ : ∀ c p v, Happening.app c p v ∈ log → p = 0x80) {d : Bytes} (hd : d = encode exCrowdSet ∨ d = encode exCrowdGet ∨ d = encode exBackOld) :
    OneAt (deviceOf exRunning) log d := by
  have rset : readMsg ((encode exCrowdSet).take 1024) = some exCrowdSet := by decide +kernel
  have rget : readMsg ((encode exCrowdGet).take 1024) = some exCrowdGet := by decide +kernel
  have rold : readMsg ((encode exBackOld).take 1024) = some exBackOld := by decide +kernel
  have hro : ¬ MayChangeAt (deviceOf exRunning) log 0x029101 0x81 := by
    rintro (⟨t, k1, k2, -⟩ | ⟨v, hv⟩)
    · have : ((deviceOf exRunning).things 0x029101).map (fun t => t.canSet 0x81) = some false := by decide +kernel
      rw [k1] at this
      rw [Option.map_some, k2] at this
      cases this
    · exact absurd (happ _ _ _ hv) (by decide)
  intro m hm
  rcases hd with rfl | rfl | rfl
  · rw [rset] at hm
    injection hm with hm
    subst hm
    exact ⟨by decide, List.pairwise_singleton _ _⟩
  · rw [rget] at hm
    injection hm with hm
    subst hm
    refine ⟨by decide, ?_⟩
    show List.Pairwise _ [(⟨0x81, []⟩ : PProp), ⟨0x80, []⟩]
    rw [List.pairwise_pair]
    exact fun h => hro h.1
  · rw [rold] at hm
    injection hm with hm
    subst hm
    exact ⟨by decide, List.pairwise_singleton _ _⟩

/-- Requests to read ask for nothing to be written. -/
theorem exBack_get {u : Nat} {d : Bytes} {a : Addr} {m : Msg} {p : Int} {v : Bytes} (hd : d = encode exCrowdGet) (hm : readMsg (d.take 1024) = some m) :
    ¬ (((m.esv = 0x60 ∨ m.esv = 0x61) ∧ ∃ i ∈ m.props, i.code = p ∧ i.data = v) ∨ m.esv = 0x6E ∧ ∃ i ∈ m.setProps, i.code = p ∧ i.data = v) := by
  subst hd
  rw [show readMsg ((encode exCrowdGet).take 1024) = some exCrowdGet by decide +kernel] at hm
  injection hm with hm
  subst hm
  rintro (⟨h, -⟩ | ⟨h, -⟩) <;> exact absurd h (by decide)

def exSetsAnswer (v : UInt8) : Happening :=
  .sent 0 [⟨"10.0.0.2", exAsker, encode { tid := 7, seoj := 0x029101, deoj := 0x05FF01, esv := 0x72, props := [⟨0x81, [7]⟩, ⟨0x80, [v]⟩] }⟩]

/-- A write that is done with; the program sets the property; a read. -/
def exSetsActs : List Crowd.Act := [.arrive 1 (encode exBackOld) exAsker, .run 1, .run 1, .run 1, .run 1, .app 0x029101 0x80 [0x31],
  .arrive 0 (encode exCrowdGet) exAsker, .run 0, .run 0, .arrive 2 [0x10] exAsker, .run 0, .run 0, .run 0, .run 0]

/-- The hypotheses of C171. -/
example : ∃ G o, (begin exRunning).exec okNet exSetsActs = some G ∧ (∀ t d a, Happening.recv t d a ∈ G.log → OneAt (deviceOf exRunning) G.log d) ∧
    (∀ c p v, Happening.app c p v ∈ G.log → v.length < 256) ∧
    G.log = exBackPast ++ .app 0x029101 0x80 [0x31] :: ([] ++ .recv 0 (encode exCrowdGet) exAsker :: [.recv 2 [0x10] exAsker, .ended 2, exSetsAnswer 0x31]) ∧
    DoneBy 0 (exSetsAnswer 0x31) ∧ readMsg ((encode exCrowdGet).take 1024) = some exCrowdGet ∧ exCrowdGet.esv = 0x62 ∧ exCrowdGet.deoj = 0x029101 ∧
    exRunning.getObject (.int 0x029101) = some o ∧ (thingOf o).canGet 0x80 = true ∧
    (∀ w, Happening.app 0x029101 0x80 w ∈ [] ++ Happening.recv 0 (encode exCrowdGet) exAsker :: [.recv 2 [0x10] exAsker, .ended 2, exSetsAnswer 0x31] ∨
      AskedFor ([] ++ Happening.recv 0 (encode exCrowdGet) exAsker :: [.recv 2 [0x10] exAsker, .ended 2, exSetsAnswer 0x31]) 0x029101 0x80 w → w = [0x31]) ∧
    (∀ e, Unfinished exBackPast e → ∀ w, AskedFor [e] 0x029101 0x80 w → w = [0x31]) := by
  have h : ((begin exRunning).exec okNet exSetsActs).map (fun G => G.log) =
      some (exBackPast ++ .app 0x029101 0x80 [0x31] :: ([] ++ .recv 0 (encode exCrowdGet) exAsker :: [.recv 2 [0x10] exAsker, .ended 2, exSetsAnswer 0x31])) := by decide +kernel
  obtain ⟨G, h1, h3⟩ := Option.map_eq_some_iff.mp h
  have hobj : (exRunning.getObject (.int 0x029101)).map (fun o => (thingOf o).canGet 0x80) = some true := by decide +kernel
  obtain ⟨o, ho, hget⟩ := Option.map_eq_some_iff.mp hobj
  have r10 : readMsg (([0x10] : Bytes).take 1024) = none := by decide +kernel
  have happ : ∀ c p v, Happening.app c p v ∈ G.log → p = 0x80 ∧ v = [0x31] := by
    intro c p v hv
    rw [h3] at hv
    simp only [exBackPast, exSetsAnswer, List.nil_append, List.cons_append, List.mem_cons, List.not_mem_nil, or_false, reduceCtorEq, false_or, Happening.app.injEq] at hv
    exact ⟨hv.2.1, hv.2.2⟩
  refine ⟨G, o, h1, ?_, fun c p v hv => by rw [(happ c p v hv).2]; decide, h3, .inr ⟨_, rfl⟩, by decide +kernel, rfl, rfl, ho, hget, ?_, ?_⟩
  · intro t d a hr
    rw [h3] at hr
    simp only [exBackPast, exSetsAnswer, List.nil_append, List.cons_append, List.mem_cons, List.not_mem_nil, or_false, reduceCtorEq, false_or, Happening.recv.injEq] at hr
    rcases hr with ⟨-, hd, -⟩ | ⟨-, hd, -⟩ | ⟨-, hd, -⟩
    · exact exBack_one (fun c p v hv => (happ c p v hv).1) (.inr (.inr hd))
    · exact exBack_one (fun c p v hv => (happ c p v hv).1) (.inr (.inl hd))
    · intro m hm
      rw [hd, r10] at hm
      cases hm
  · rintro w (hv | ⟨u, d, a, m, hr, hm, -, hw⟩)
    · simp [exSetsAnswer] at hv
    · simp only [exSetsAnswer, List.nil_append, List.mem_cons, List.not_mem_nil, or_false, reduceCtorEq, Happening.recv.injEq] at hr
      rcases hr with ⟨-, hd, -⟩ | ⟨-, hd, -⟩
      · exact absurd hw (exBack_get (u := u) (a := a) hd hm)
      · rw [hd, r10] at hm; cases hm
  · rintro e ⟨u, d, a, rfl, p, q, hpq, hn⟩
    exfalso
    rcases p with _ | ⟨y, _ | ⟨y', p⟩⟩
    · injection hpq with e1 e2
      injection e1 with e1
      exact hn (.sent 1 []) (by rw [← e2]; simp) (.inr ⟨[], by rw [e1]⟩)
    · injection hpq with _ e2
      injection e2 with e2
      cases e2
    · injection hpq with _ e2
      injection e2 with _ e2
      cases p <;> cases e2

/-- The condition about datagrams that are not done with (`hopen`) is needed in C171: a request to write 0x44 is read before the program sets 0x31, and takes effect after it. Nothing else is written,
and the read gives 0x44. -/
theorem C171_open_needed : ∃ (acts : List Crowd.Act) (G : St) (l0 l2 l3 : List Happening), (begin exRunning).exec okNet acts = some G ∧
    (∀ t d a, Happening.recv t d a ∈ G.log → OneAt (deviceOf exRunning) G.log d) ∧ (∀ c p v, Happening.app c p v ∈ G.log → v.length < 256) ∧
    G.log = l0 ++ .app 0x029101 0x80 [0x31] :: (l2 ++ .recv 0 (encode exCrowdGet) exAsker :: l3) ∧ l3 = [exSetsAnswer 0x44] ∧
    ∀ w, ¬ (Happening.app 0x029101 0x80 w ∈ l2 ++ .recv 0 (encode exCrowdGet) exAsker :: l3 ∨ AskedFor (l2 ++ .recv 0 (encode exCrowdGet) exAsker :: l3) 0x029101 0x80 w) := by
  have h : ((begin exRunning).exec okNet [.arrive 1 (encode exBackOld) exAsker, .app 0x029101 0x80 [0x31], .run 1, .run 1, .run 1, .run 1,
      .arrive 0 (encode exCrowdGet) exAsker, .run 0, .run 0, .run 0, .run 0, .run 0, .run 0]).map (fun G => G.log) =
      some ([.recv 1 (encode exBackOld) exAsker] ++ .app 0x029101 0x80 [0x31] :: ([.sent 1 []] ++ .recv 0 (encode exCrowdGet) exAsker :: [exSetsAnswer 0x44])) := by decide +kernel
  obtain ⟨G, h1, h3⟩ := Option.map_eq_some_iff.mp h
  have happ : ∀ c p v, Happening.app c p v ∈ G.log → p = 0x80 ∧ v = [0x31] := by
    intro c p v hv
    rw [h3] at hv
    simp only [exSetsAnswer, List.nil_append, List.cons_append, List.mem_cons, List.not_mem_nil, or_false, reduceCtorEq, false_or, Happening.app.injEq] at hv
    exact ⟨hv.2.1, hv.2.2⟩
  refine ⟨_, G, _, _, _, h1, ?_, fun c p v hv => by rw [(happ c p v hv).2]; decide, h3, rfl, ?_⟩
  · intro t d a hr
    rw [h3] at hr
    simp only [exSetsAnswer, List.nil_append, List.cons_append, List.mem_cons, List.not_mem_nil, or_false, reduceCtorEq, false_or, Happening.recv.injEq] at hr
    rcases hr with ⟨-, hd, -⟩ | ⟨-, hd, -⟩
    · exact exBack_one (fun c p v hv => (happ c p v hv).1) (.inr (.inr hd))
    · exact exBack_one (fun c p v hv => (happ c p v hv).1) (.inr (.inl hd))
  · rintro w (hv | ⟨u, d, a, m, hr, hm, -, hw⟩)
    · simp [exSetsAnswer] at hv
    · simp only [exSetsAnswer, List.nil_append, List.cons_append, List.mem_cons, List.not_mem_nil, or_false, reduceCtorEq, false_or, Happening.recv.injEq] at hr
      exact exBack_get (u := u) (a := a) hr.2.1 hm hw

/-- So it is in C170: 0x44 is asked for before the write of 0x31 that is done with, and takes effect after it. -/
theorem C170_open_needed : ∃ (acts : List Crowd.Act) (G : St) (l1 l2 l3 : List Happening) (e1 : Happening), (begin exRunning).exec okNet acts = some G ∧
    (∀ t d a, Happening.recv t d a ∈ G.log → OneAt (deviceOf exRunning) G.log d) ∧ (∀ c p v, Happening.app c p v ∉ G.log) ∧
    G.log = [.recv 1 (encode exBackOld) exAsker] ++ .recv 2 (encode exCrowdSet) exAsker :: (l1 ++ e1 :: (l2 ++ .recv 0 (encode exCrowdGet) exAsker :: l3)) ∧ DoneBy 2 e1 ∧
    l3 = [exSetsAnswer 0x44] ∧
    ∀ w, AskedFor (.recv 2 (encode exCrowdSet) exAsker :: (l1 ++ e1 :: (l2 ++ .recv 0 (encode exCrowdGet) exAsker :: l3))) 0x029101 0x80 w → w = [0x31] := by
  have h : ((begin exRunning).exec okNet [.arrive 1 (encode exBackOld) exAsker, .arrive 2 (encode exCrowdSet) exAsker, .run 2, .run 2, .run 2, .run 2, .run 1, .run 1, .run 1, .run 1,
      .arrive 0 (encode exCrowdGet) exAsker, .run 0, .run 0, .run 0, .run 0, .run 0, .run 0]).map (fun G => G.log) =
      some ([.recv 1 (encode exBackOld) exAsker] ++ .recv 2 (encode exCrowdSet) exAsker :: ([] ++ exBackDone 2 :: ([.sent 1 []] ++ .recv 0 (encode exCrowdGet) exAsker :: [exSetsAnswer 0x44]))) := by
    decide +kernel
  obtain ⟨G, h1, h3⟩ := Option.map_eq_some_iff.mp h
  have happ : ∀ c p v, Happening.app c p v ∉ G.log := by
    intro c p v hv
    rw [h3] at hv
    simp [exSetsAnswer, exBackDone] at hv
  refine ⟨_, G, _, _, _, _, h1, ?_, happ, h3, .inr ⟨_, rfl⟩, rfl, ?_⟩
  · intro t d a hr
    rw [h3] at hr
    simp only [exSetsAnswer, exBackDone, List.nil_append, List.cons_append, List.mem_cons, List.not_mem_nil, or_false, reduceCtorEq, false_or, Happening.recv.injEq] at hr
    refine exBack_one (fun c p v hv => absurd hv (happ c p v)) ?_
    rcases hr with ⟨-, hd, -⟩ | ⟨-, hd, -⟩ | ⟨-, hd, -⟩
    · exact .inr (.inr hd)
    · exact .inl hd
    · exact .inr (.inl hd)
  · rintro w ⟨u, d, a, m, hr, hm, -, hw⟩
    simp only [exSetsAnswer, exBackDone, List.nil_append, List.cons_append, List.mem_cons, List.not_mem_nil, or_false, reduceCtorEq, false_or, Happening.recv.injEq] at hr
    rcases hr with ⟨-, rfl, -⟩ | ⟨-, hd, -⟩
    · rw [show readMsg ((encode exCrowdSet).take 1024) = some exCrowdSet by decide +kernel] at hm
      injection hm with hm
      subst hm
      rcases hw with ⟨-, i, hi, -, rfl⟩ | ⟨hw, -⟩
      · rw [List.mem_singleton.mp (show i ∈ [(⟨0x80, [0x31]⟩ : PProp)] from hi)]
      · exact absurd hw (by decide)
    · exact absurd hw (exBack_get (u := u) (a := a) hd hm)

def exAloneBefore : List Crowd.Act := [.arrive 1 (encode exBackOld) exAsker, .run 1]
def exAloneAfter : List Crowd.Act := [.run 0, .app 0x029101 0x80 [0x32], .run 1, .run 0, .run 1, .run 0, .run 1, .run 0]

/-- The hypotheses of C172: a write, while another thread writes the same property and the program sets it. -/
example : ∃ G G' o, (begin exRunning).exec okNet exAloneBefore = some G ∧ G.exec okNet (.arrive 0 (encode exCrowdSet) exAsker :: exAloneAfter) = some G' ∧
    (∀ t d a, Happening.recv t d a ∈ G'.log → OneAt (deviceOf exRunning) G'.log d) ∧ (∀ c p v, Happening.app c p v ∈ G'.log → v.length < 256) ∧
    2 * namedIn (encode exCrowdSet) + 2 ≤ turns 0 exAloneAfter ∧ readMsg ((encode exCrowdSet).take 1024) = some exCrowdSet ∧ exCrowdSet.esv = 0x61 ∧
    exRunning.getObject (.int exCrowdSet.deoj) = some o ∧ exBackDone 0 ∈ G'.log := by
  have h : (((begin exRunning).exec okNet exAloneBefore).bind fun G => (G.exec okNet (.arrive 0 (encode exCrowdSet) exAsker :: exAloneAfter)).map fun G => G.log) =
      some [.recv 1 (encode exBackOld) exAsker, .recv 0 (encode exCrowdSet) exAsker, .app 0x029101 0x80 [0x32], .sent 1 [], exBackDone 0] := by decide +kernel
  obtain ⟨G, h1, h⟩ := Option.bind_eq_some_iff.mp h
  obtain ⟨G', h2, h3⟩ := Option.map_eq_some_iff.mp h
  have hobj : (exRunning.getObject (.int exCrowdSet.deoj)).isSome = true := by decide +kernel
  obtain ⟨o, ho⟩ := Option.isSome_iff_exists.mp hobj
  have happ : ∀ c p v, Happening.app c p v ∈ G'.log → p = 0x80 ∧ v = [0x32] := by
    intro c p v hv
    rw [h3] at hv
    simp only [exBackDone, List.mem_cons, List.not_mem_nil, or_false, reduceCtorEq, false_or, Happening.app.injEq] at hv
    exact ⟨hv.2.1, hv.2.2⟩
  refine ⟨G, G', o, h1, h2, ?_, fun c p v hv => by rw [(happ c p v hv).2]; decide, by decide +kernel, by decide +kernel, rfl, ho, by rw [h3]; simp⟩
  intro t d a hr
  rw [h3] at hr
  simp only [exBackDone, List.mem_cons, List.not_mem_nil, or_false, reduceCtorEq, false_or, Happening.recv.injEq] at hr
  rcases hr with ⟨-, hd, -⟩ | ⟨-, hd, -⟩
  · exact exBack_one (fun c p v hv => (happ c p v hv).1) (.inr (.inr hd))
  · exact exBack_one (fun c p v hv => (happ c p v hv).1) (.inl hd)

/-! ### Two reads -/

/-- A write that is done with; a read; another, at another thread. -/
def exAgainActs : List Crowd.Act := [.arrive 1 (encode exBackOld) exAsker, .run 1, .run 1, .run 1, .run 1, .arrive 0 (encode exCrowdGet) exAsker, .run 0, .arrive 2 [0x10] exAsker,
  .run 0, .run 0, .run 0, .run 0, .run 0, .arrive 1 (encode exCrowdGet) exAsker, .run 1, .run 1, .run 1, .run 1, .run 1, .run 1]

def exAgainAnswer (t : Nat) : Happening :=
  .sent t [⟨"10.0.0.2", exAsker, encode { tid := 7, seoj := 0x029101, deoj := 0x05FF01, esv := 0x72, props := [⟨0x81, [7]⟩, ⟨0x80, [0x44]⟩] }⟩]

def exAgainRest : List Happening :=
  .recv 0 (encode exCrowdGet) exAsker :: ([.recv 2 [0x10] exAsker, .ended 2] ++ exAgainAnswer 0 :: ([] ++ .recv 1 (encode exCrowdGet) exAsker :: [exAgainAnswer 1]))

/-- The hypotheses of C173. -/
example : ∃ G o, (begin exRunning).exec okNet exAgainActs = some G ∧ (∀ t d a, Happening.recv t d a ∈ G.log → OneAt (deviceOf exRunning) G.log d) ∧
    (∀ c p v, Happening.app c p v ∉ G.log) ∧ G.log = exBackPast ++ exAgainRest ∧ DoneBy 0 (exAgainAnswer 0) ∧ (∀ x ∈ [Happening.recv 2 [0x10] exAsker, .ended 2], ¬ DoneBy 0 x) ∧
    DoneBy 1 (exAgainAnswer 1) ∧ readMsg ((encode exCrowdGet).take 1024) = some exCrowdGet ∧ exCrowdGet.esv = 0x62 ∧ exRunning.getObject (.int exCrowdGet.deoj) = some o ∧
    (∀ v, ¬ (Happening.app exCrowdGet.deoj 0x80 v ∈ exAgainRest ∨ AskedFor exAgainRest exCrowdGet.deoj 0x80 v)) ∧
    (∀ e, Unfinished exBackPast e → ∀ v, ¬ AskedFor [e] exCrowdGet.deoj 0x80 v) := by
  have h : ((begin exRunning).exec okNet exAgainActs).map (fun G => G.log) = some (exBackPast ++ exAgainRest) := by decide +kernel
  obtain ⟨G, h1, h3⟩ := Option.map_eq_some_iff.mp h
  have hobj : (exRunning.getObject (.int exCrowdGet.deoj)).isSome = true := by decide +kernel
  obtain ⟨o, ho⟩ := Option.isSome_iff_exists.mp hobj
  have r10 : readMsg (([0x10] : Bytes).take 1024) = none := by decide +kernel
  have happ : ∀ c p v, Happening.app c p v ∉ G.log := by
    intro c p v hv
    rw [h3] at hv
    simp [exBackPast, exAgainRest, exAgainAnswer] at hv
  have hrest : ∀ u d a, Happening.recv u d a ∈ exAgainRest → d = encode exCrowdGet ∨ d = [0x10] := by
    intro u d a hr
    simp only [exAgainRest, exAgainAnswer, List.nil_append, List.cons_append, List.mem_cons, List.not_mem_nil, or_false, reduceCtorEq, false_or, Happening.recv.injEq] at hr
    rcases hr with ⟨-, hd, -⟩ | ⟨-, hd, -⟩ | ⟨-, hd, -⟩
    · exact .inl hd
    · exact .inr hd
    · exact .inl hd
  refine ⟨G, o, h1, ?_, happ, h3, .inr ⟨_, rfl⟩, ?_, .inr ⟨_, rfl⟩, by decide +kernel, rfl, ho, ?_, ?_⟩
  · intro t d a hr
    rw [h3] at hr
    rcases List.mem_append.mp hr with hr | hr
    · simp only [exBackPast, List.mem_cons, List.not_mem_nil, or_false, reduceCtorEq, Happening.recv.injEq] at hr
      exact exBack_one (fun c p v hv => absurd hv (happ c p v)) (.inr (.inr hr.2.1))
    · rcases hrest t d a hr with hd | hd
      · exact exBack_one (fun c p v hv => absurd hv (happ c p v)) (.inr (.inl hd))
      · intro m hm
        rw [hd, r10] at hm
        cases hm
  · intro x hx
    simp only [List.mem_cons, List.not_mem_nil, or_false] at hx
    rcases hx with rfl | rfl
    · rintro (h | ⟨_, h⟩) <;> cases h
    · rintro (h | ⟨_, h⟩) <;> cases h
  · rintro v (hv | ⟨u, d, a, m, hr, hm, -, hw⟩)
    · exact happ _ _ _ (by rw [h3]; exact List.mem_append_right _ hv)
    · rcases hrest u d a hr with hd | hd
      · exact exBack_get (u := u) (a := a) hd hm hw
      · rw [hd, r10] at hm; cases hm
  · rintro e ⟨u, d, a, rfl, p, q, hpq, hn⟩
    exfalso
    rcases p with _ | ⟨y, _ | ⟨y', p⟩⟩
    · injection hpq with e1 e2
      injection e1 with e1
      exact hn (.sent 1 []) (by rw [← e2]; simp) (.inr ⟨[], by rw [e1]⟩)
    · injection hpq with _ e2
      injection e2 with e2
      cases e2
    · injection hpq with _ e2
      injection e2 with _ e2
      cases p <;> cases e2

/-- The condition about datagrams that are not done with (`hopen`) is needed in C173: a request to write 0x44 is read before two reads and takes effect between them. -/
theorem C173_open_needed : ∃ (acts : List Crowd.Act) (G : St) (l2 : List Happening) (v : UInt8), (begin exRunning).exec okNet acts = some G ∧
    (∀ t d a, Happening.recv t d a ∈ G.log → OneAt (deviceOf exRunning) G.log d) ∧ (∀ c p v, Happening.app c p v ∉ G.log) ∧
    G.log = [.recv 1 (encode exBackOld) exAsker] ++ .recv 0 (encode exCrowdGet) exAsker :: ([] ++ exSetsAnswer v :: (l2 ++ .recv 0 (encode exCrowdGet) exAsker :: [exSetsAnswer 0x44])) ∧
    v ≠ 0x44 ∧
    ∀ w, ¬ AskedFor (.recv 0 (encode exCrowdGet) exAsker :: ([] ++ exSetsAnswer v :: (l2 ++ .recv 0 (encode exCrowdGet) exAsker :: [exSetsAnswer 0x44]))) 0x029101 0x80 w := by
  have h : ((begin exRunning).exec okNet [.arrive 1 (encode exBackOld) exAsker, .arrive 0 (encode exCrowdGet) exAsker, .run 0, .run 0, .run 0, .run 0, .run 0, .run 0,
      .run 1, .run 1, .run 1, .run 1, .arrive 0 (encode exCrowdGet) exAsker, .run 0, .run 0, .run 0, .run 0, .run 0, .run 0]).map (fun G => G.log) =
      some ([.recv 1 (encode exBackOld) exAsker] ++ .recv 0 (encode exCrowdGet) exAsker :: ([] ++ exSetsAnswer 0x30 ::
        ([.sent 1 []] ++ .recv 0 (encode exCrowdGet) exAsker :: [exSetsAnswer 0x44]))) := by decide +kernel
  obtain ⟨G, h1, h3⟩ := Option.map_eq_some_iff.mp h
  have happ : ∀ c p v, Happening.app c p v ∉ G.log := by
    intro c p v hv
    rw [h3] at hv
    simp [exSetsAnswer] at hv
  refine ⟨_, G, _, 0x30, h1, ?_, happ, h3, by decide, ?_⟩
  · intro t d a hr
    rw [h3] at hr
    simp only [exSetsAnswer, List.nil_append, List.cons_append, List.mem_cons, List.not_mem_nil, or_false, reduceCtorEq, false_or, Happening.recv.injEq] at hr
    refine exBack_one (fun c p v hv => absurd hv (happ c p v)) ?_
    rcases hr with ⟨-, hd, -⟩ | ⟨-, hd, -⟩ | ⟨-, hd, -⟩
    · exact .inr (.inr hd)
    · exact .inr (.inl hd)
    · exact .inr (.inl hd)
  · rintro w ⟨u, d, a, m, hr, hm, -, hw⟩
    simp only [exSetsAnswer, List.nil_append, List.cons_append, List.mem_cons, List.not_mem_nil, or_false, reduceCtorEq, false_or, Happening.recv.injEq] at hr
    rcases hr with ⟨-, hd, -⟩ | ⟨-, hd, -⟩
    · exact exBack_get (u := u) (a := a) hd hm hw
    · exact exBack_get (u := u) (a := a) hd hm hw

/-! ### A write-and-read request -/

def exBothMsg : Msg := { tid := 8, seoj := 0x05FF01, deoj := 0x029101, esv := 0x6E, setProps := [⟨0x80, [0x33]⟩], getProps := [⟨0x81, []⟩] }

def exBothAfter : List Crowd.Act := [.run 0, .app 0x029101 0x80 [0x32], .run 1, .run 0, .run 1, .run 0, .run 1, .run 0, .run 0, .run 0]

/-- The hypotheses of C172 for a request that writes what others write too, and reads what nobody does. -/
example : ∃ G G', (begin exRunning).exec okNet exAloneBefore = some G ∧ G.exec okNet (.arrive 0 (encode exBothMsg) exAsker :: exBothAfter) = some G' ∧
    (∀ t d a, Happening.recv t d a ∈ G'.log → OneAt (deviceOf exRunning) G'.log d) ∧ (∀ c p v, Happening.app c p v ∈ G'.log → v.length < 256) ∧
    2 * namedIn (encode exBothMsg) + 2 ≤ turns 0 exBothAfter ∧
    (∀ m, readMsg ((encode exBothMsg).take 1024) = some m → ∀ i ∈ asksToRead m, ¬ MayChangeAt (deviceOf exRunning) G'.log m.deoj i.code) ∧
    .sent 0 [⟨"10.0.0.2", exAsker, encode { tid := 8, seoj := 0x029101, deoj := 0x05FF01, esv := 0x7E, setProps := [⟨0x80, []⟩], getProps := [⟨0x81, [7]⟩] }⟩] ∈ G'.log := by
  have h : (((begin exRunning).exec okNet exAloneBefore).bind fun G => (G.exec okNet (.arrive 0 (encode exBothMsg) exAsker :: exBothAfter)).map fun G => G.log) =
      some [.recv 1 (encode exBackOld) exAsker, .recv 0 (encode exBothMsg) exAsker, .app 0x029101 0x80 [0x32], .sent 1 [],
        .sent 0 [⟨"10.0.0.2", exAsker, encode { tid := 8, seoj := 0x029101, deoj := 0x05FF01, esv := 0x7E, setProps := [⟨0x80, []⟩], getProps := [⟨0x81, [7]⟩] }⟩]] := by decide +kernel
  obtain ⟨G, h1, h⟩ := Option.bind_eq_some_iff.mp h
  obtain ⟨G', h2, h3⟩ := Option.map_eq_some_iff.mp h
  have rboth : readMsg ((encode exBothMsg).take 1024) = some exBothMsg := by decide +kernel
  have happ : ∀ c p v, Happening.app c p v ∈ G'.log → p = 0x80 ∧ v = [0x32] := by
    intro c p v hv
    rw [h3] at hv
    simp only [List.mem_cons, List.not_mem_nil, or_false, reduceCtorEq, false_or, Happening.app.injEq] at hv
    exact ⟨hv.2.1, hv.2.2⟩
  have hro : ¬ MayChangeAt (deviceOf exRunning) G'.log 0x029101 0x81 := by
    rintro (⟨t, k1, k2, -⟩ | ⟨v, hv⟩)
    · have : ((deviceOf exRunning).things 0x029101).map (fun t => t.canSet 0x81) = some false := by decide +kernel
      rw [k1] at this
      rw [Option.map_some, k2] at this
      cases this
    · exact absurd (happ _ _ _ hv).1 (by decide)
  refine ⟨G, G', h1, h2, ?_, fun c p v hv => by rw [(happ c p v hv).2]; decide, by decide +kernel, ?_, by rw [h3]; simp⟩
  · intro t d a hr
    rw [h3] at hr
    simp only [List.mem_cons, List.not_mem_nil, or_false, reduceCtorEq, false_or, Happening.recv.injEq] at hr
    rcases hr with ⟨-, hd, -⟩ | ⟨-, hd, -⟩
    · exact exBack_one (fun c p v hv => (happ c p v hv).1) (.inr (.inr hd))
    · intro m hm
      rw [hd, rboth] at hm
      injection hm with hm
      subst hm
      refine ⟨by decide, ?_⟩
      show List.Pairwise _ [(⟨0x80, [0x33]⟩ : PProp), ⟨0x81, []⟩]
      rw [List.pairwise_pair]
      exact fun h => hro h.2
  · intro m hm i hi
    rw [rboth] at hm
    injection hm with hm
    subst hm
    rw [List.mem_singleton.mp (show i ∈ [(⟨0x81, []⟩ : PProp)] from hi)]
    exact hro

end Uecho
