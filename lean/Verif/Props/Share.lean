import Verif.Proofs.Share
import Verif.Proofs.ShareText
import Verif.Props.Persist

/-!
# C152: objects that share parts are read back sharing the same parts

`Object.write` and `Object.read` (`/repo/auxi/core/objects.py:22-46`) for objects that refer to each other in any way.
-/
namespace Auxi.Share.Props
open Json Share Share.Spec

variable {F : Type}

/-- **C152 (sharing).** If `jsonpickle` visits the attributes in alphabetical order: an object that refers to other objects in any way, through shared parts and cycles of any kind, can be written, is read
back with the same seen along every path, and two paths lead to one and the same object in what is read exactly if they do in what was written; writing it again gives the same file. -/
theorem C152_shared (I : Ids F) {h : Heap F} (hh : Sound h) {a : ℕ} (ha : a < h.length) :
    ∃ t m b, text I true h a = some t ∧ read I t = some (.ref b, m) ∧ Same h (.ref a) m (.ref b) ∧ text I true m b = some t := by
  obtain ⟨t, m, h1, h2, h3, _, h5⟩ := read_text I true hh (fun _ _ _ => rfl) ha
  exact ⟨t, m, 0, h1, h2, h3, h5 true⟩

/-- **C152 (order in which attributes are set).** If `jsonpickle` visits the attributes in the order in which they were set: the same, for objects whose classes set their attributes in the alphabetical order
of their names. -/
theorem C152_set_order (I : Ids F) {h : Heap F} (hh : Sound h) (hs : Alphabetical h) {a : ℕ} (ha : a < h.length) :
    ∃ t m b, text I false h a = some t ∧ read I t = some (.ref b, m) ∧ Same h (.ref a) m (.ref b) ∧ text I false m b = some t := by
  obtain ⟨t, m, h1, h2, h3, _, h5⟩ := read_text I false hh (fun c l hl => (sortKeys_id l (hs c l hl)).symm) ha
  exact ⟨t, m, 0, h1, h2, h3, h5 false⟩

/-- **C152 (equal texts).** Two objects with the same text (`str`, and therefore the same hash) cannot be told apart. -/
theorem C152_text (I : Ids F) {h h' : Heap F} (hh : Sound h) (hh' : Sound h') {a a' : ℕ} (ha : a < h.length) (ha' : a' < h'.length) (ht : text I true h a = text I true h' a') :
    Same h (.ref a) h' (.ref a') := by
  obtain ⟨t, m, h1, h2, h3, _, _⟩ := read_text I true hh (fun _ _ _ => rfl) ha
  obtain ⟨t', m', k1, k2, k3, _, _⟩ := read_text I true hh' (fun _ _ _ => rfl) ha'
  rw [ht, k1] at h1
  obtain rfl := Option.some.inj h1
  rw [k2] at h2
  simp only [Option.some.injEq, Prod.mk.injEq] at h2
  obtain ⟨_, rfl⟩ := h2
  exact ⟨fun p => (k3.1 p).symm.trans (h3.1 p), fun p q => (k3.2 p q).symm.trans (h3.2 p q)⟩

/-- **C152 (what a text says).** The text of an object is exactly what can be seen of it: two objects have the same text if and only if the same is seen along every path and the same paths lead to one and the
same object.  Neither the addresses nor the order in which attributes were set matter. -/
theorem C152_text_iff (I : Ids F) {h h' : Heap F} (hh : Sound h) (hh' : Sound h') {a a' : ℕ} (ha : a < h.length) (ha' : a' < h'.length) :
    text I true h a = text I true h' a' ↔ Same h (.ref a) h' (.ref a') :=
  ⟨C152_text I hh hh' ha ha', text_of_same I hh hh' ha ha'⟩

/-! ## An entity and its components -/

/-- Whole numbers. -/
def intIds : Ids ℤ := { Persist.Props.ints.toFloats with
  ofNat := fun n => (n : ℤ)
  toNat := fun z => some z.toNat
  back := fun n => by simp }

/-- A business entity `shop` with one component `sales`, with the attributes in the order in which the classes set them (`structure.py:128-135,278-292`, `des.py:365-368`, `objects.py:57-59`;
dates and the structure of the ledger are left out): the component and the entity refer to one and the same general ledger. -/
def exShop : Heap ℤ := [
  .inst "auxi.modelling.business.structure.Entity".toList [("gl".toList, .ref 1), ("_parent_path".toList, .str []), ("path".toList, .str "shop".toList), ("components".toList, .ref 2),
    ("negative_income_tax_total".toList, .num 0), ("period_count".toList, .num (-1)), ("_name".toList, .str "shop".toList), ("description".toList, .none)],
  .inst "auxi.modelling.financial.des.GeneralLedger".toList [("name".toList, .str "General Ledger".toList), ("description".toList, .str "General Ledger".toList), ("transactions".toList, .ref 4)],
  .list [.ref 3],
  .inst "auxi.modelling.business.structure.Component".toList [("_parent_path".toList, .str "shop".toList), ("path".toList, .str "shop/sales".toList), ("gl".toList, .ref 1), ("components".toList, .ref 5),
    ("activities".toList, .ref 6), ("_name".toList, .str "sales".toList), ("description".toList, .none)],
  .list [],
  .list [],
  .list []]

theorem exShop_sound : Sound exShop where
  closed := by
    intro o ho a ha
    simp only [exShop, List.mem_cons, List.not_mem_nil, or_false] at ho
    show a < 7
    rcases ho with rfl | rfl | rfl | rfl | rfl | rfl | rfl <;> simp [parts] at ha <;> omega
  distinct := by
    intro c l ho
    simp only [exShop, List.mem_cons, List.not_mem_nil, or_false, Node.inst.injEq, reduceCtorEq, false_or] at ho
    rcases ho with ⟨_, rfl⟩ | ⟨_, rfl⟩ | ⟨_, rfl⟩ <;> decide
  free := by
    intro c l ho
    simp only [exShop, List.mem_cons, List.not_mem_nil, or_false, Node.inst.injEq, reduceCtorEq, false_or] at ho
    rcases ho with ⟨_, rfl⟩ | ⟨_, rfl⟩ | ⟨_, rfl⟩ <;> decide

/-- The way from the entity to its ledger, and to the ledger of its component. -/
def ownLedger : List Step := [.attr "gl".toList]
/-- The way from the entity to the ledger of its component. -/
def salesLedger : List Step := [.attr "components".toList, .pos 0, .attr "gl".toList]

example : ∃ t m b, text intIds true exShop 0 = some t ∧ read intIds t = some (.ref b, m) ∧ Meet m (.ref b) ownLedger salesLedger ∧
    look m (salesLedger ++ [.attr "transactions".toList]) (.ref b) = some (.list 0) := by
  obtain ⟨t, m, b, h1, h2, h3, _⟩ := C152_shared intIds exShop_sound (a := 0) (by decide)
  exact ⟨t, m, b, h1, h2, (h3.2 _ _).2 ⟨1, rfl, rfl⟩, by rw [h3.1]; rfl⟩

/-- A cycle: an account that is in the list of its own sub-accounts, and twice. -/
def exCycle : Heap ℤ := [.list [.ref 1, .ref 1], .inst "auxi.modelling.financial.des.GeneralLedgerAccount".toList [("accounts".toList, .ref 0), ("name".toList, .str "a".toList)]]

theorem exCycle_sound : Sound exCycle where
  closed := by
    intro o ho a ha
    simp only [exCycle, List.mem_cons, List.not_mem_nil, or_false] at ho
    show a < 2
    rcases ho with rfl | rfl <;> simp [parts] at ha <;> omega
  distinct := by
    intro c l ho
    simp only [exCycle, List.mem_cons, List.not_mem_nil, or_false, Node.inst.injEq, reduceCtorEq, false_or] at ho
    obtain ⟨_, rfl⟩ := ho
    decide
  free := by
    intro c l ho
    simp only [exCycle, List.mem_cons, List.not_mem_nil, or_false, Node.inst.injEq, reduceCtorEq, false_or] at ho
    obtain ⟨_, rfl⟩ := ho
    decide

theorem exCycle_alphabetical : Alphabetical exCycle := by
  intro c l ho
  simp only [exCycle, List.mem_cons, List.not_mem_nil, or_false, Node.inst.injEq, reduceCtorEq, false_or] at ho
  obtain ⟨_, rfl⟩ := ho
  decide

example : ∃ t m b, text intIds false exCycle 1 = some t ∧ read intIds t = some (.ref b, m) ∧ Meet m (.ref b) [] [.attr "accounts".toList, .pos 1] ∧
    Meet m (.ref b) [] [.attr "accounts".toList, .pos 0, .attr "accounts".toList, .pos 1] := by
  obtain ⟨t, m, b, h1, h2, h3, _⟩ := C152_set_order intIds exCycle_sound exCycle_alphabetical (a := 1) (by decide)
  exact ⟨t, m, b, h1, h2, (h3.2 _ _).2 ⟨1, rfl, rfl⟩, (h3.2 _ _).2 ⟨1, rfl, rfl⟩⟩

example : Same exShop (.ref 0) (exShop ++ exShop) (.ref 0) := by
  have hs : Sound (exShop ++ exShop) := by
    refine ⟨fun o ho a ha => ?_, fun c l ho => ?_, fun c l ho => ?_⟩
    · have := exShop_sound.closed o (by rcases List.mem_append.1 ho with h | h <;> exact h) a ha
      rw [List.length_append]
      omega
    · exact exShop_sound.distinct c l (by rcases List.mem_append.1 ho with h | h <;> exact h)
    · exact exShop_sound.free c l (by rcases List.mem_append.1 ho with h | h <;> exact h)
  exact C152_text intIds exShop_sound hs (by decide) (by decide) (by decide +kernel)

/-- The account of `exCycle` with its attributes set in the other order, at another address. -/
def exCycle' : Heap ℤ := [.inst "auxi.modelling.financial.des.GeneralLedgerAccount".toList [("name".toList, .str "a".toList), ("accounts".toList, .ref 1)], .list [.ref 0, .ref 0]]

/-- The same account with two sub-accounts that look like it but are one other object. -/
def exCopy : Heap ℤ := [.inst "auxi.modelling.financial.des.GeneralLedgerAccount".toList [("name".toList, .str "a".toList), ("accounts".toList, .ref 1)], .list [.ref 2, .ref 2],
  .inst "auxi.modelling.financial.des.GeneralLedgerAccount".toList [("name".toList, .str "a".toList), ("accounts".toList, .ref 1)]]

theorem exCycle'_sound : Sound exCycle' where
  closed := by
    intro o ho a ha
    simp only [exCycle', List.mem_cons, List.not_mem_nil, or_false] at ho
    show a < 2
    rcases ho with rfl | rfl <;> simp [parts] at ha <;> omega
  distinct := by
    intro c l ho
    simp only [exCycle', List.mem_cons, List.not_mem_nil, or_false, Node.inst.injEq, reduceCtorEq] at ho
    obtain ⟨_, rfl⟩ := ho
    decide
  free := by
    intro c l ho
    simp only [exCycle', List.mem_cons, List.not_mem_nil, or_false, Node.inst.injEq, reduceCtorEq] at ho
    obtain ⟨_, rfl⟩ := ho
    decide

theorem exCopy_sound : Sound exCopy where
  closed := by
    intro o ho a ha
    simp only [exCopy, List.mem_cons, List.not_mem_nil, or_false] at ho
    show a < 3
    rcases ho with rfl | rfl | rfl <;> simp [parts] at ha <;> omega
  distinct := by
    intro c l ho
    simp only [exCopy, List.mem_cons, List.not_mem_nil, or_false, Node.inst.injEq, reduceCtorEq, false_or, or_self] at ho
    obtain ⟨_, rfl⟩ := ho
    decide
  free := by
    intro c l ho
    simp only [exCopy, List.mem_cons, List.not_mem_nil, or_false, Node.inst.injEq, reduceCtorEq, false_or, or_self] at ho
    obtain ⟨_, rfl⟩ := ho
    decide

example : Same exCycle (.ref 1) exCycle' (.ref 0) := (C152_text_iff intIds exCycle_sound exCycle'_sound (by decide) (by decide)).1 (by decide +kernel)

/-- Looking alike is not enough: the texts differ because other paths meet. -/
example : text intIds true exCycle 1 ≠ text intIds true exCopy 0 := by
  intro h
  have := ((C152_text_iff intIds exCycle_sound exCopy_sound (by decide) (by decide)).1 h).2 [] [.attr "accounts".toList, .pos 0]
  obtain ⟨x, h1, h2⟩ := this.2 ⟨1, rfl, rfl⟩
  have e1 : some (Val.ref 0) = some (Val.ref x : Val ℤ) := h1
  have e2 : some (Val.ref 2) = some (Val.ref x : Val ℤ) := h2
  rw [← e2] at e1
  cases e1

/-- What `jsonpickle` makes of the entity if it visits the attributes in the order in which they were set: the ledger is object 2. -/
def exShopDoc : J ℤ := .obj [(Persist.tag, .str "auxi.modelling.business.structure.Entity".toList),
  ("gl".toList, .obj [(Persist.tag, .str "auxi.modelling.financial.des.GeneralLedger".toList), ("name".toList, .str "General Ledger".toList), ("description".toList, .str "General Ledger".toList),
    ("transactions".toList, .arr [])]),
  ("_parent_path".toList, .str []), ("path".toList, .str "shop".toList),
  ("components".toList, .arr [.obj [(Persist.tag, .str "auxi.modelling.business.structure.Component".toList), ("_parent_path".toList, .str "shop".toList), ("path".toList, .str "shop/sales".toList),
    ("gl".toList, .obj [(idTag, .num 2)]), ("components".toList, .arr []), ("activities".toList, .arr []), ("_name".toList, .str "sales".toList), ("description".toList, .null)]]),
  ("negative_income_tax_total".toList, .num 0), ("period_count".toList, .num (-1)), ("_name".toList, .str "shop".toList), ("description".toList, .null)]

/-- What is read: object 2 is now the list of components. -/
def exShopRead : Heap ℤ := [
  .inst "auxi.modelling.business.structure.Entity".toList [("_name".toList, .str "shop".toList), ("_parent_path".toList, .str []), ("components".toList, .ref 1), ("description".toList, .none),
    ("gl".toList, .ref 5), ("negative_income_tax_total".toList, .num 0), ("path".toList, .str "shop".toList), ("period_count".toList, .num (-1))],
  .list [.ref 2],
  .inst "auxi.modelling.business.structure.Component".toList [("_name".toList, .str "sales".toList), ("_parent_path".toList, .str "shop".toList), ("activities".toList, .ref 3), ("components".toList, .ref 4),
    ("description".toList, .none), ("gl".toList, .ref 1), ("path".toList, .str "shop/sales".toList)],
  .list [],
  .list [],
  .inst "auxi.modelling.financial.des.GeneralLedger".toList [("description".toList, .str "General Ledger".toList), ("name".toList, .str "General Ledger".toList), ("transactions".toList, .ref 6)],
  .list []]

/-- **C152 is false in general.** If `jsonpickle` visits the attributes in the order in which they were set, the file, whose keys are sorted, lists the parts in another order than the one in which they were
numbered: an entity is written and read without any error, but the general ledger of its component is then no ledger: it is the list of the entity's components. -/
theorem C152_violated : ∃ t m b, Sound exShop ∧ text intIds false exShop 0 = some t ∧ read intIds t = some (.ref b, m) ∧
    Meet exShop (.ref 0) ownLedger salesLedger ∧ look exShop salesLedger (.ref 0) = some (.inst "auxi.modelling.financial.des.GeneralLedger".toList) ∧
    ¬ Meet m (.ref b) ownLedger salesLedger ∧ look m salesLedger (.ref b) = some (.list 1) ∧ Meet m (.ref b) [.attr "components".toList] salesLedger := by
  have h1 : enc intIds false exShop exShop.length (.ref 0) [] = some (exShopDoc, [0, 1, 4, 2, 3, 5, 6]) := by rfl
  have h2 : Json.Proofs.Proper exShopDoc := by
    simp only [exShopDoc, Json.Proofs.Proper, Json.Proofs.ProperPairs, Json.Proofs.ProperItems, and_true]
    decide
  have h3 : dec intIds (Json.sorted exShopDoc) [] = some (.ref 0, exShopRead) := by rfl
  refine ⟨Json.dumps intIds.toFloats exShopDoc, exShopRead, 0, exShop_sound, by simp only [text, h1, Option.map_some], by rw [read_dumps intIds exShopDoc h2, h3], ⟨1, rfl, rfl⟩, rfl, ?_, rfl, ⟨1, rfl, rfl⟩⟩
  rintro ⟨x, k1, k2⟩
  have e1 : x = 5 := by
    have : some (Val.ref 5) = some (Val.ref x : Val ℤ) := k1
    simpa using this.symm
  have e2 : x = 1 := by
    have : some (Val.ref 1) = some (Val.ref x : Val ℤ) := k2
    simpa using this.symm
  omega

end Auxi.Share.Props
