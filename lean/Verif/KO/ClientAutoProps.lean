import Verif.KO.ClientProps
/-!
# A client that lets the observer choose the places of the contacts (C84)
-/

namespace StateObs.KO
open StateObs Matrix Rot Kine KF
open Observer

variable {nc ni : ℕ} {o o' : Observer} {c c' : Client}

/-- **C84** The client may leave the choice of the place of a contact to the observer (a negative number): this is the same as asking for the first place that is free, so that `C84_returns` speaks of the
histories with such calls too. -/
theorem C84_automatic {l : List Op} (h : Observer.construct nc ni = .ok o) (hr : Client.Run nc ni Client.new l c) (n : ℕ) (hn : n < nc) (h1 : n ∉ c.contacts)
    (hfirst : ∀ i < n, i ∈ c.contacts) (k : Kin) (b : Value) (hk : k.Has b) (hp : b.pos ≠ none) (ho : b.ori ≠ none) (cov : Option (M12 × M12)) (num : Int) (hnum : num < 0) (v : Visco) (l' : List Op) :
    Op.run o (l ++ .addContact k cov num v :: l') = Op.run o (l ++ .addContact k cov n v :: l') ∧
    ∃ a a', Op.run o l = .ok a ∧ a.addContact k cov num v = .ok (n, a') := by
  obtain ⟨a, e, hs⟩ := (Sim.new h).run hr
  have hiff : ∀ i, i ∈ a.getListOfContacts ↔ i ∈ c.contacts := by
    intro i
    rw [mem_list]
    constructor
    · rintro ⟨k, hk, hset⟩
      exact (hs.contacts i k hk).1 hset
    · exact fun hi => hs.isSet hi
  obtain ⟨m, a', ea⟩ := addContact_live hs.fed.inv hs.len hk (Option.isSome_iff_ne_none.2 hp) (Option.isSome_iff_ne_none.2 ho) cov num v
    (Or.inr ⟨hnum, n, hn, fun hm => h1 ((hiff n).1 hm)⟩)
  obtain ⟨hm1, hm2, -, -, hm5⟩ := C55_addContact (l := l) ⟨o, h, e⟩ ea
  obtain rfl : m = n := by
    rcases lt_trichotomy m n with hlt | rfl | hlt
    · exact (hm2 ((hiff m).2 (hfirst m hlt))).elim
    · rfl
    · exact (h1 ((hiff n).1 (hm5 hnum n hlt))).elim
  obtain ⟨_, _, _, _, hcn, -⟩ := addContact_eq ea
  have heq : a.addContact k cov num v = a.addContact k cov m v := by
    have h2 : a.contactNumber m = .ok m := by rw [contactNumber, if_neg (by omega), Int.toNat_natCast]
    unfold Observer.addContact
    rw [hcn, h2]
  refine ⟨?_, a, a', e, ea⟩
  have e' : ∀ q : List Op, Op.run o (l ++ q) = Op.run a q := by
    intro q
    rw [Op.run, List.foldlM_append]
    change (Op.run o l >>= fun z => Op.run z q) = _
    rw [e]
    rfl
  rw [e', e']
  change (Op.exec a (.addContact k cov num v) >>= fun z => Op.run z l') = (Op.exec a (.addContact k cov m v) >>= fun z => Op.run z l')
  simp only [Op.exec, heq]

/-- The client of `C84_example`, after any number of estimations with one contact, may add a second one. -/
example (hnc : 1 < nc) (hni : 0 < ni) (T : ℕ) : ∃ o a a', Observer.construct nc ni = .ok o ∧ Op.run o (exampleStart nc ni ++ (List.replicate T exampleIteration).flatten) = .ok a ∧
    a.addContact atRest none (-1) ⟨1, 1, 1, 1⟩ = .ok (1, a') := by
  obtain ⟨o, h⟩ := (C53_constructible nc ni).2 hni
  obtain ⟨c, hr, -, -, hc⟩ := C84_example (nc := nc) (by omega) hni T
  obtain ⟨-, a, a', e, ea⟩ := C84_automatic h hr 1 hnc (by simp [hc]) (by simp [hc]) atRest _ atRest_has (by simp) (by simp) none (-1) (by omega) ⟨1, 1, 1, 1⟩ []
  exact ⟨o, a, a', h, e, ea⟩

end StateObs.KO
