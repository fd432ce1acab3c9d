import Verif.Proof.Edits.Elems
import Verif.Proof.SamplesWF
/-!
# C27: editing a field changes the bytes of that field

`Spec/Edits.lean` has the places of a file, and the tables of the fields of every class.
-/

namespace Genie
open Layout

/-- Two encoded files agree, but for the `width` bytes at `offset`. -/
def SameExceptAt (offset width : Nat) (bs bs' : Bytes) : Prop :=
  bs'.length = bs.length ∧ offset + width ≤ bs.length ∧ ∀ k, k < offset ∨ offset + width ≤ k → bs'[k]? = bs[k]?

/-- The bytes of an integer: little endian, two's complement. -/
def intBytes (width : Nat) (i : Int) : Bytes := natLE width (i % (256 : Int) ^ width).toNat

theorem layoutBytes_singleton (it : Item) : layoutBytes [it] = it.bytes := by simp [layoutBytes]

theorem intBytes_length (w : Nat) (i : Int) : (intBytes w i).length = w := natLE_len _ _

theorem SameExceptAt.of_parts {pre post m m' : Bytes} {w : Nat} (h : m.length = w) (h' : m'.length = w) :
    SameExceptAt pre.length w (pre ++ m ++ post) (pre ++ m' ++ post) := by
  refine ⟨by simp [h, h'], by simp [h], fun k hk => ?_⟩
  rw [List.append_assoc, List.append_assoc]
  rcases hk with hk | hk
  · rw [List.getElem?_append_left hk, List.getElem?_append_left hk]
  · rw [List.getElem?_append_right (by omega), List.getElem?_append_right (by omega),
      List.getElem?_append_right (by omega), List.getElem?_append_right (by omega), h, h']

/-- Every integer field of every record of a file has its own bytes: setting it to another value in range changes these bytes,
and no other ones, and the edited file is what is read back.  (The hot key of a train location is also that of the unit:
`C27_hot_key`.) -/
theorem C27_int_field (v : Version) (d : DatFile) (hd : DatFile.WFAt v d) (n : Node) (p : Place .file n) (hs : p.Stored v)
    (x : n.Obj) (hx : p.get d = some x) (f : IntField n.Obj) (hf : f ∈ n.intFields v)
    (hk : ¬ (n = .record .TrainLocation ∧ f.name = "hot_key_id")) :
    ∃ pre post, DatFile.toBytes d = .ok (pre ++ intBytes f.width (f.get x) ++ post) ∧
      ∀ i, FitsInt f.width f.signed i →
        DatFile.toBytes (p.set d (f.set x i)) = .ok (pre ++ intBytes f.width i ++ post) ∧
        ∃ h', DatFile.fromBytes (ByteHandler.new (pre ++ intBytes f.width i ++ post)) = .ok (p.set d (f.set x i), h') := by
  have good := p.good v d x hd hs hx
  have ok := Node.intFields_ok v n f hf
  obtain ⟨it, hit, hsp⟩ := ok.splits x good.wf
  obtain ⟨pre, post, h⟩ := edit_core hd hs hx hsp
  have h : ∀ i, FitsInt f.width f.signed i →
        DatFile.toBytes (p.set d (f.set x i)) = .ok (pre ++ intBytes f.width i ++ post) ∧
        ∃ h', DatFile.fromBytes (ByteHandler.new (pre ++ intBytes f.width i ++ post)) = .ok (p.set d (f.set x i), h') := by
    intro i hi
    have := h i trivial (ok.wf x good.wf i hi) (p.kept d x _ hx (intFields_kept v n f hf hk x i)).1
    rw [layoutBytes_singleton, hit.bytes] at this
    exact this
  refine ⟨pre, post, ?_, h⟩
  have := (h (f.get x) (ok.fits x good.wf)).1
  rw [ok.self, good.self] at this
  exact this

/-- The same, without naming the parts. -/
theorem C27_int_field_only (v : Version) (d : DatFile) (hd : DatFile.WFAt v d) (n : Node) (p : Place .file n) (hs : p.Stored v)
    (x : n.Obj) (hx : p.get d = some x) (f : IntField n.Obj) (hf : f ∈ n.intFields v)
    (hk : ¬ (n = .record .TrainLocation ∧ f.name = "hot_key_id")) :
    ∃ offset bs, DatFile.toBytes d = .ok bs ∧ ∀ i, FitsInt f.width f.signed i →
      ∃ bs', DatFile.toBytes (p.set d (f.set x i)) = .ok bs' ∧ SameExceptAt offset f.width bs bs' ∧
        (bs'.drop offset).take f.width = intBytes f.width i ∧
        ∃ h', DatFile.fromBytes (ByteHandler.new bs') = .ok (p.set d (f.set x i), h') := by
  obtain ⟨pre, post, h1, h2⟩ := C27_int_field v d hd n p hs x hx f hf hk
  refine ⟨pre.length, _, h1, fun i hi => ⟨_, (h2 i hi).1, .of_parts (intBytes_length _ _) (intBytes_length _ _), ?_, (h2 i hi).2⟩⟩
  rw [List.append_assoc, List.drop_left, List.take_left' (intBytes_length _ _)]

/-- The same for the float fields (four bytes; the new value is a single, as every value that was read). -/
theorem C27_float_field (v : Version) (d : DatFile) (hd : DatFile.WFAt v d) (n : Node) (p : Place .file n) (hs : p.Stored v)
    (x : n.Obj) (hx : p.get d = some x) (f : FloatField n.Obj) (hf : f ∈ n.floatFields v) (y : PyFloat) (hy : f.get x = some y) :
    ∃ pre post, DatFile.toBytes d = .ok (pre ++ bytesOfFloat y ++ post) ∧
      ∀ z, IsF32 z →
        DatFile.toBytes (p.set d (f.set x z)) = .ok (pre ++ bytesOfFloat z ++ post) ∧
        ∃ h', DatFile.fromBytes (ByteHandler.new (pre ++ bytesOfFloat z ++ post)) = .ok (p.set d (f.set x z), h') := by
  have good := p.good v d x hd hs hx
  have ok := Node.floatFields_ok v n f hf
  obtain ⟨it, hit, hsp⟩ := ok.splits x good.wf y hy
  obtain ⟨pre, post, h⟩ := edit_core hd hs hx hsp
  have h : ∀ z, IsF32 z →
        DatFile.toBytes (p.set d (f.set x z)) = .ok (pre ++ bytesOfFloat z ++ post) ∧
        ∃ h', DatFile.fromBytes (ByteHandler.new (pre ++ bytesOfFloat z ++ post)) = .ok (p.set d (f.set x z), h') := by
    intro z hz
    have := h z trivial (ok.wf x good.wf y hy z hz) (p.kept d x _ hx (floatFields_kept v n f hf x z)).1
    rw [layoutBytes_singleton, hit.bytes] at this
    exact this
  refine ⟨pre, post, ?_, h⟩
  have := (h y (ok.fits x good.wf y hy)).1
  rw [ok.self x y hy, good.self] at this
  exact this

/-- The bytes of a text: the marker, the length, the characters. -/
def textBytes (s : PyStr) : Bytes := natLE 2 0x0A60 ++ natLE 2 (utf8Len s) ++ Item.utf8 s

/-- The same for the texts; here the bytes that follow may move. -/
theorem C27_text_field (v : Version) (d : DatFile) (hd : DatFile.WFAt v d) (n : Node) (p : Place .file n) (hs : p.Stored v)
    (x : n.Obj) (hx : p.get d = some x) (f : TextField n.Obj) (hf : f ∈ n.textFields v) :
    ∃ pre post, DatFile.toBytes d = .ok (pre ++ textBytes (f.get x) ++ post) ∧
      ∀ s, IsDebugStr s →
        DatFile.toBytes (p.set d (f.set x s)) = .ok (pre ++ textBytes s ++ post) ∧
        ∃ h', DatFile.fromBytes (ByteHandler.new (pre ++ textBytes s ++ post)) = .ok (p.set d (f.set x s), h') := by
  have good := p.good v d x hd hs hx
  have ok := Node.textFields_ok v n f hf
  obtain ⟨pre, post, h⟩ := edit_core hd hs hx (ok.splits x good.wf)
  have hb : ∀ s, layoutBytes (text s) = textBytes s := fun s => by simp [text, layoutBytes_singleton, Item.bytes, textBytes]
  refine ⟨pre, post, ?_, fun s hsd => ?_⟩
  · have := (h (f.get x) trivial (by rw [ok.self]; exact good.wf) (by rw [ok.self]; exact good.keeps)).1
    rw [ok.self, good.self, hb] at this
    exact this
  · have := h s trivial (ok.wf x good.wf s hsd) (p.kept d x _ hx (textFields_kept v n f hf x s)).1
    rw [hb] at this
    exact this

/-- The same for the elements of all lists of numbers (of which the others are lists of records): setting one element changes its
bytes only.  `f.items` are the items of one element. -/
theorem C27_list_element (v : Version) (d : DatFile) (hd : DatFile.WFAt v d) (n : Node) (p : Place .file n) (hs : p.Stored v)
    (x : n.Obj) (hx : p.get d = some x) (f : ListField n.Obj) (hf : f ∈ n.elemLists v)
    (hk : ¬ (n = .record .Creatable ∧ f.name = "train_locations")) (k : Nat) (e : f.Elem) (he : (f.get x)[k]? = some e) :
    ∃ pre post, DatFile.toBytes d = .ok (pre ++ layoutBytes (f.items e) ++ post) ∧
      ∀ e', f.ok e' →
        DatFile.toBytes (p.set d (f.set x ((f.get x).set k e'))) = .ok (pre ++ layoutBytes (f.items e') ++ post) ∧
        ∃ h', DatFile.fromBytes (ByteHandler.new (pre ++ layoutBytes (f.items e') ++ post)) =
          .ok (p.set d (f.set x ((f.get x).set k e')), h') := by
  have good := p.good v d x hd hs hx
  have ok := Node.elemLists_ok v n f hf
  obtain ⟨hlt, heq⟩ := List.getElem?_eq_some_iff.1 he
  obtain ⟨pre, post, h⟩ := edit_core hd hs hx (ok.splits x good.wf k hlt)
  have h : ∀ e', f.ok e' →
        DatFile.toBytes (p.set d (f.set x ((f.get x).set k e'))) = .ok (pre ++ layoutBytes (f.items e') ++ post) ∧
        ∃ h', DatFile.fromBytes (ByteHandler.new (pre ++ layoutBytes (f.items e') ++ post)) =
          .ok (p.set d (f.set x ((f.get x).set k e')), h') := by
    intro e' he'
    exact h e' trivial (ok.wf x good.wf k e' he') (p.kept d x _ hx (elemLists_kept v n f hf hk x k e')).1
  refine ⟨pre, post, ?_, h⟩
  have := (h e (ok.old x good.wf e (List.mem_of_getElem? he))).1
  rw [set_self he, ok.self, good.self] at this
  exact this

theorem edit_int {v : Version} {d : DatFile} (hd : DatFile.WFAt v d) {n : Node} {p : Place .file n} (hs : p.Stored v)
    {x : n.Obj} (hx : p.get d = some x) {w : Nat} {s : Bool} {g : Int → n.Obj} {old : Int} (ho : g old = x) (hfit : FitsInt w s old)
    {it : Int → Item} (hit : ∀ i, (it i).bytes = intBytes w i) (hsp : Splits (fun _ => True) (fun i => n.layout v (g i)) (fun i => [it i]))
    (hw : ∀ i, FitsInt w s i → n.WF v (g i)) (hk : ∀ i, n.Kept x (g i)) :
    ∃ pre post, DatFile.toBytes d = .ok (pre ++ intBytes w old ++ post) ∧
      ∀ i, FitsInt w s i →
        DatFile.toBytes (p.set d (g i)) = .ok (pre ++ intBytes w i ++ post) ∧
        ∃ h', DatFile.fromBytes (ByteHandler.new (pre ++ intBytes w i ++ post)) = .ok (p.set d (g i), h') := by
  have good := p.good v d x hd hs hx
  obtain ⟨pre, post, h⟩ := edit_core hd hs hx hsp
  have h : ∀ i, FitsInt w s i →
        DatFile.toBytes (p.set d (g i)) = .ok (pre ++ intBytes w i ++ post) ∧
        ∃ h', DatFile.fromBytes (ByteHandler.new (pre ++ intBytes w i ++ post)) = .ok (p.set d (g i), h') := by
    intro i hi
    have := h i trivial (hw i hi) (p.kept d x _ hx (hk i)).1
    rw [layoutBytes_singleton, hit] at this
    exact this
  refine ⟨pre, post, ?_, h⟩
  have := (h old hfit).1
  rw [ho, good.self] at this
  exact this

/-- Before 8.8, the fields of the single research location of a tech are spread over it. -/
theorem C27_research_location_before_88 (v : Version) (hv : v.num < 88) (d : DatFile) (hd : DatFile.WFAt v d)
    (p : Place .file (.record .Tech)) (hs : p.Stored v) (x : Tech) (hx : p.get d = some x)
    (t : ResearchLocation) (ht : x.research_locations = [t]) (f : IntField ResearchLocation)
    (hf : f ∈ Node.intFields v (.record .ResearchLocation)) :
    ∃ pre post, DatFile.toBytes d = .ok (pre ++ intBytes f.width (f.get t) ++ post) ∧
      ∀ i, FitsInt f.width f.signed i →
        DatFile.toBytes (p.set d { x with research_locations := [f.set t i] }) = .ok (pre ++ intBytes f.width i ++ post) ∧
        ∃ h', DatFile.fromBytes (ByteHandler.new (pre ++ intBytes f.width i ++ post)) =
          .ok (p.set d { x with research_locations := [f.set t i] }, h') := by
  have hv' : ¬ 88 ≤ v.num := by omega
  have good := p.good v d x hd hs hx
  have hxw : Tech.WF v x := good.wf
  have htw : ResearchLocation.WF v t := by
    have := (hxw.research_locations.of_lt' hv').2
    rw [ht] at this
    exact this t List.mem_cons_self
  have ok := Node.intFields_ok v (.record .ResearchLocation) f hf
  have sp : ∃ it : Int → Item, (∀ i, (it i).bytes = intBytes f.width i) ∧
      Splits (fun _ => True) (fun i => Tech.layout v { x with research_locations := [f.set t i] }) (fun i => [it i]) := by
    have : ∀ f ∈ Node.intFields v (.record .ResearchLocation), ∃ it : Int → Item, (∀ i, (it i).bytes = intBytes f.width i) ∧
      Splits (fun _ => True) (fun i => Tech.layout v { x with research_locations := [f.set t i] }) (fun i => [it i]) := by
      refine forall_cons ?_ (forall_cons ?_ (forall_cons ?_ (forall_cons ?_ forall_nil)))
      · refine ⟨fun i => .int 2 true i, fun _ => rfl, ?_⟩
        simp only [Tech.layout, if_neg hv', Tech.location84]
        walk Splits.here
      · refine ⟨fun i => .int 2 true i, fun _ => rfl, ?_⟩
        simp only [Tech.layout, if_neg hv', Tech.location84]
        walk Splits.here
      · refine ⟨fun i => .int 1 false i, fun _ => rfl, ?_⟩
        simp only [Tech.layout, if_neg hv', Tech.location84]
        walk Splits.here
      · refine ⟨fun i => .int 4 true i, fun _ => rfl, ?_⟩
        simp only [Tech.layout, if_neg hv', Tech.location84]
        walk Splits.here
    exact this f hf
  obtain ⟨it, hit, hsp⟩ := sp
  refine edit_int (n := .record .Tech) hd hs hx (g := fun i => { x with research_locations := [f.set t i] }) ?_ (ok.fits t htw) hit hsp ?_ (fun i => trivial)
  · rw [ok.self, ← ht]
  · intro i hi
    show Tech.WF v { x with research_locations := [f.set t i] }
    refine { hxw with research_locations := Since.of_lt hv' ⟨rfl, fun t' ht' => ?_⟩ }
    rw [List.mem_singleton.1 ht']
    exact ok.wf t htw i hi

/-- Before 8.8, the fields of the single train location of a unit are stored in the unit. -/
theorem C27_train_location_before_88 (v : Version) (hv : v.num < 88) (d : DatFile) (hd : DatFile.WFAt v d)
    (p : Place .file (.record .Creatable)) (hs : p.Stored v) (x : Creatable) (hx : p.get d = some x)
    (t : TrainLocation) (ht : x.train_locations = [t]) (f : IntField TrainLocation)
    (hf : f ∈ Node.intFields v (.record .TrainLocation)) :
    ∃ pre post, DatFile.toBytes d = .ok (pre ++ intBytes f.width (f.get t) ++ post) ∧
      ∀ i, FitsInt f.width f.signed i →
        DatFile.toBytes (p.set d { x with train_locations := [f.set t i] }) = .ok (pre ++ intBytes f.width i ++ post) ∧
        ∃ h', DatFile.fromBytes (ByteHandler.new (pre ++ intBytes f.width i ++ post)) =
          .ok (p.set d { x with train_locations := [f.set t i] }, h') := by
  have hv' : ¬ 88 ≤ v.num := by omega
  have good := p.good v d x hd hs hx
  obtain ⟨key, hxw⟩ : ∃ hk, Creatable.WFWith v hk x := good.wf
  obtain ⟨a0, a1, a2, ha⟩ := Exactly.three hxw.projectile_spawning_area
  have htw : IsI16 t.train_time ∧ IsI16 t.unit_id ∧ IsI8 t.button_id ∧ t.hot_key_id = key := by
    obtain ⟨t', e, h⟩ := hxw.train_locations.of_lt' hv'
    rw [ht] at e; cases e; exact h
  have all : ∀ f ∈ Node.intFields v (.record .TrainLocation),
      (∀ t, f.set t (f.get t) = t) ∧ FitsInt f.width f.signed (f.get t) ∧ (∀ i, (show TrainLocation from f.set t i).hot_key_id = t.hot_key_id) ∧
      (∀ i, FitsInt f.width f.signed i → IsI16 (TrainLocation.train_time (f.set t i)) ∧ IsI16 (TrainLocation.unit_id (f.set t i)) ∧ IsI8 (TrainLocation.button_id (f.set t i))) := by
    refine forall_append (forall_cons ?_ (forall_cons ?_ (forall_cons ?_ forall_nil))) (forall_ite fun h => absurd h hv')
    · exact ⟨fun _ => rfl, fits_i16.2 htw.1, fun _ => rfl, fun i hi => ⟨fits_i16.1 hi, htw.2.1, htw.2.2.1⟩⟩
    · exact ⟨fun _ => rfl, fits_i16.2 htw.2.1, fun _ => rfl, fun i hi => ⟨htw.1, fits_i16.1 hi, htw.2.2.1⟩⟩
    · exact ⟨fun _ => rfl, fits_i8.2 htw.2.2.1, fun _ => rfl, fun i hi => ⟨htw.1, htw.2.1, fits_i8.1 hi⟩⟩
  obtain ⟨hself, hfits, hkey, hwf⟩ := all f hf
  have sp : ∃ it : Int → Item, (∀ i, (it i).bytes = intBytes f.width i) ∧
      Splits (fun _ => True) (fun i => Creatable.layout v { x with train_locations := [f.set t i] }) (fun i => [it i]) := by
    have : ∀ f ∈ Node.intFields v (.record .TrainLocation), ∃ it : Int → Item, (∀ i, (it i).bytes = intBytes f.width i) ∧
      Splits (fun _ => True) (fun i => Creatable.layout v { x with train_locations := [f.set t i] }) (fun i => [it i]) := by
      by_cases hw : 84 ≤ v.num
      · refine forall_append (forall_cons ?_ (forall_cons ?_ (forall_cons ?_ forall_nil))) (forall_ite fun h => absurd h hv')
        · refine ⟨fun i => .packed .h (.int i), fun _ => rfl, ?_⟩
          refine Splits.congr ?_ (fun i _ => Creatable.layout_flat84 v { x with train_locations := [{ t with train_time := i }] } a0 a1 a2 ha hv' hw _ rfl)
          dsimp only
          walk Splits.here
        · refine ⟨fun i => .packed .h (.int i), fun _ => rfl, ?_⟩
          refine Splits.congr ?_ (fun i _ => Creatable.layout_flat84 v { x with train_locations := [{ t with unit_id := i }] } a0 a1 a2 ha hv' hw _ rfl)
          dsimp only
          walk Splits.here
        · refine ⟨fun i => .packed .b (.int i), fun _ => rfl, ?_⟩
          refine Splits.congr ?_ (fun i _ => Creatable.layout_flat84 v { x with train_locations := [{ t with button_id := i }] } a0 a1 a2 ha hv' hw _ rfl)
          dsimp only
          walk Splits.here
      · refine forall_append (forall_cons ?_ (forall_cons ?_ (forall_cons ?_ forall_nil))) (forall_ite fun h => absurd h hv')
        · refine ⟨fun i => .packed .h (.int i), fun _ => rfl, ?_⟩
          refine Splits.congr ?_ (fun i _ => Creatable.layout_flat77 v { x with train_locations := [{ t with train_time := i }] } a0 a1 a2 ha hv' hw _ rfl)
          dsimp only
          walk Splits.here
        · refine ⟨fun i => .packed .h (.int i), fun _ => rfl, ?_⟩
          refine Splits.congr ?_ (fun i _ => Creatable.layout_flat77 v { x with train_locations := [{ t with unit_id := i }] } a0 a1 a2 ha hv' hw _ rfl)
          dsimp only
          walk Splits.here
        · refine ⟨fun i => .packed .b (.int i), fun _ => rfl, ?_⟩
          refine Splits.congr ?_ (fun i _ => Creatable.layout_flat77 v { x with train_locations := [{ t with button_id := i }] } a0 a1 a2 ha hv' hw _ rfl)
          dsimp only
          walk Splits.here
    exact this f hf
  obtain ⟨it, hit, hsp⟩ := sp
  refine edit_int (n := .record .Creatable) hd hs hx (g := fun i => { x with train_locations := [f.set t i] }) ?_ hfits hit hsp ?_ ?_
  · rw [hself, ← ht]
  · intro i hi
    obtain ⟨w1, w2, w3⟩ := hwf i hi
    exact ⟨key, { hxw with train_locations := Since.of_lt hv' ⟨_, rfl, w1, w2, w3, (hkey i).trans htw.2.2.2⟩ }⟩
  · intro i
    show Option.map _ (some (f.set t i)) = Option.map _ x.train_locations.head?
    rw [ht]
    exact congrArg some (hkey i)

/-- `data.techs[k].resource_costs[j].amount = amount` -/
def DatFile.setTechCost (d : DatFile) (k j : Nat) (amount : Int) : DatFile := { d with
  techs := d.techs.modify k fun t => { t with
    resource_costs := t.resource_costs.modify j fun c => { c with amount := amount } } }

theorem modify_eq_set {l : List α} {k : Nat} {a : α} (h : l[k]? = some a) (f : α → α) : l.modify k f = l.set k (f a) := by
  obtain ⟨hk, he⟩ := List.getElem?_eq_some_iff.1 h
  apply List.ext_getElem?
  intro i
  rw [List.getElem?_modify, List.getElem?_set]
  by_cases hi : k = i
  · subst hi; simp [hk, he]
  · simp [hi]

/-- README, "Change cost of Loom" (there `k = 22`, `j = 0`, `amount = 69`): the edited file differs in the two bytes of the
amount, and is read back as edited. -/
theorem C27_loom (v : Version) (d : DatFile) (hd : DatFile.WFAt v d) (k j : Nat) (hk : k < d.techs.length) (hj : j < 3) :
    ∃ offset bs, DatFile.toBytes d = .ok bs ∧ ∀ amount, IsI16 amount →
      ∃ bs', DatFile.toBytes (d.setTechCost k j amount) = .ok bs' ∧ SameExceptAt offset 2 bs bs' ∧
        (bs'.drop offset).take 2 = intBytes 2 amount ∧
        ∃ h', DatFile.fromBytes (ByteHandler.new bs') = .ok (d.setTechCost k j amount, h') := by
  have hk1 : d.techs[k]? = some d.techs[k] := List.getElem?_eq_getElem hk
  have ht : Tech.WF v d.techs[k] := hd.techs.2 _ (List.getElem_mem hk)
  have hj' : j < (d.techs[k]).resource_costs.length := by rw [ht.resource_costs.1]; exact hj
  have hj1 : (d.techs[k]).resource_costs[j]? = some (d.techs[k]).resource_costs[j] := List.getElem?_eq_getElem hj'
  have hx : (Place.step (.DatFile_techs k) (.step (.Tech_resource_costs j) .here)).get d = some (d.techs[k]).resource_costs[j] := by
    simp only [Place.get, Slot.get, hk1, hj1, Option.bind_some]
  have e : ∀ amount, d.setTechCost k j amount = (Place.step (.DatFile_techs k) (.step (.Tech_resource_costs j) .here)).set d
      { (d.techs[k]).resource_costs[j] with amount := amount } := by
    intro amount
    simp only [DatFile.setTechCost, Place.set, Slot.get, Slot.set, hk1, hj1, modify_eq_set hk1, modify_eq_set hj1]
  obtain ⟨off, bs, h1, h2⟩ := C27_int_field_only v d hd _ (.step (.DatFile_techs k) (.step (.Tech_resource_costs j) .here)) ⟨trivial, trivial, trivial⟩
    _ hx ⟨"amount", 2, true, fun (x : Genie.ResearchResourceCost) => x.amount, fun x y => { x with amount := y }⟩
    (List.mem_cons_of_mem _ List.mem_cons_self) (by simp)
  refine ⟨off, bs, h1, fun amount ha => ?_⟩
  rw [e]
  exact h2 amount (fits_i16.2 ha)

/-- The hypotheses can be met: a file with two techs, for any version. -/
example (v : Version) (hv : v ≠ .UNDEFINED) : ∃ offset bs bs', DatFile.toBytes (Sample.datFile v) = .ok bs ∧
    DatFile.toBytes ((Sample.datFile v).setTechCost 1 0 69) = .ok bs' ∧ SameExceptAt offset 2 bs bs' ∧ (Sample.datFile v).setTechCost 1 0 69 ≠ Sample.datFile v := by
  obtain ⟨o, bs, h1, h2⟩ := C27_loom v _ (Sample.datFile_wf v hv) 1 0 (by simp [Sample.datFile]) (by decide)
  obtain ⟨bs', h3, h4, -⟩ := h2 69 (by decide)
  refine ⟨o, bs, bs', h1, h3, h4, fun h => ?_⟩
  have := congrArg (fun d : DatFile => d.techs.map (fun t => t.resource_costs.map (·.amount))) h
  revert this
  show ¬ (_ = _)
  simp [DatFile.setTechCost, Sample.datFile, Sample.tech, Sample.researchCost, List.modify]

/-- A place deep inside: the first attack of the fourth unit of the second civ. -/
def Sample.attackPlace : Place .file (.record .AttackOrArmor) :=
  .step (.DatFile_civs 1) (.step (.Civ_units 3) (.step .Unit_type_50 (.step (.Type50_attacks 0) .here)))

example (v : Version) : Sample.attackPlace.Stored v ∧ Sample.attackPlace.get (Sample.datFile v) = some Sample.attack :=
  ⟨⟨trivial, trivial, trivial, trivial, trivial⟩, rfl⟩

end Genie
