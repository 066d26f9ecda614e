import Verif.Model.Machine
import Verif.Spec.File
import Verif.Proof.Frag
import Verif.Proof.Protect
/-
Writing objects: what the functions that write the document do to the buffer, the object count and the offset table.
-/
namespace Verif.Proof
open Verif Verif.Model Verif.Spec

/-- The document without what writing the inside of an object can change. -/
def ofix (f : Fpdf) : Fpdf :=
  { f with buffer := [], panicked := false, m.protect.cipher := none, m.protect.rc4n := 0 }

/-- The cipher in use belongs to an object already begun. -/
def RcOk (f g : Fpdf) : Prop := f.m.protect.rc4n ≤ f.n → g.m.protect.rc4n ≤ g.n

/-- `b` was appended to the buffer, nothing else. -/
structure Out (f g : Fpdf) (b : Bytes) : Prop where
  buf : g.buffer = f.buffer ++ b
  fix : ofix g = ofix f
  rc : RcOk f g

theorem Out.refl (f : Fpdf) : Out f f [] := ⟨by simp, rfl, id⟩
theorem Out.trans {f g h : Fpdf} {a b : Bytes} (h1 : Out f g a) (h2 : Out g h b) : Out f h (a ++ b) :=
  ⟨by rw [h2.buf, h1.buf, List.append_assoc], h2.fix.trans h1.fix, fun h => h2.rc (h1.rc h)⟩

theorem Out.state {f g : Fpdf} {b : Bytes} (h : Out f g b) : g.state = f.state := by
  have := congrArg (fun x : Fpdf => x.state) h.fix; exact this
theorem Out.n {f g : Fpdf} {b : Bytes} (h : Out f g b) : g.n = f.n := by
  have := congrArg (fun x : Fpdf => x.n) h.fix; exact this
theorem Out.offsets {f g : Fpdf} {b : Bytes} (h : Out f g b) : g.offsets = f.offsets := by
  have := congrArg (fun x : Fpdf => x.offsets) h.fix; exact this
theorem Out.err {f g : Fpdf} {b : Bytes} (h : Out f g b) : g.err = f.err := by
  have := congrArg (fun x : Fpdf => x.err) h.fix; exact this

theorem Out.out {f : Fpdf} (hs : f.state = 1) (s : Bytes) : Out f (f.out s) (s ++ [10]) := by
  unfold Fpdf.out
  rw [if_neg (by omega)]
  exact ⟨by simp, rfl, id⟩

theorem out_err' (f : Fpdf) (s : Bytes) : (f.out s).err = f.err := by unfold Fpdf.out; split <;> rfl

/-- A step inside an object. -/
structure Pl (f g : Fpdf) : Prop where
  err : g.err = f.err
  o : f.state = 1 → ∃ b, Out f g b

theorem Pl.refl (f : Fpdf) : Pl f f := ⟨rfl, fun _ => ⟨_, Out.refl f⟩⟩
theorem Pl.trans {f g h : Fpdf} (h1 : Pl f g) (h2 : Pl g h) : Pl f h := ⟨h2.err.trans h1.err, fun hs => by
  obtain ⟨a, ha⟩ := h1.o hs
  obtain ⟨b, hb⟩ := h2.o (ha.state.trans hs)
  exact ⟨_, ha.trans hb⟩⟩
theorem Pl.out {f g : Fpdf} (h : Pl f g) (s : Bytes) : Pl f (g.out s) := h.trans ⟨out_err' g s, fun hs => ⟨_, Out.out hs s⟩⟩
theorem Pl.outs {f g : Fpdf} (h : Pl f g) (s : String) : Pl f (g.outs s) := h.out _
theorem Pl.outf {f g : Fpdf} (h : Pl f g) (s : String) (a : List Arg) : Pl f (g.outf s a) := h.out _
theorem Pl.ite {f g h : Fpdf} {c : Prop} [Decidable c] (h1 : c → Pl f g) (h2 : ¬ c → Pl f h) : Pl f (if c then g else h) := by
  split
  · exact h1 ‹_›
  · exact h2 ‹_›
/-- An optional step. -/
theorem Pl.opt {f g h : Fpdf} {c : Prop} [Decidable c] (h1 : Pl f g) (h2 : Pl g h) : Pl f (if c then h else g) := by
  split
  · exact h1.trans h2
  · exact h1
theorem Pl.foldl {α} (F : Fpdf → α → Fpdf) (h : ∀ f a, Pl f (F f a)) (l : List α) {f g : Fpdf} (h0 : Pl f g) : Pl f (l.foldl F g) := by
  induction l generalizing g with
  | nil => exact h0
  | cons a l ih => exact ih (h0.trans (h g a))
theorem Pl.upd {f g : Fpdf} (hb : g.buffer = f.buffer) (hf : ofix g = ofix f) (hr : RcOk f g := by exact id) : Pl f g :=
  ⟨by have := congrArg (fun x : Fpdf => x.err) hf; exact this, fun _ => ⟨[], by simp [hb], hf, hr⟩⟩

theorem rc4_fix (md5 : Bytes → Bytes) (p : Protect) (n : Nat) (b : Bytes) :
    ({ (p.rc4 md5 n b).1 with cipher := none, rc4n := 0 } : Protect) = { p with cipher := none, rc4n := 0 } := by
  unfold Protect.rc4
  cases hc : p.cipher with
  | none => rfl
  | some c =>
    dsimp only
    by_cases hn : p.rc4n ≠ n
    · simp only [hn, if_true, ne_eq, not_false_eq_true]
    · simp only [ne_eq, not_not] at hn
      simp [hn, hc]

theorem rc4_length (md5 : Bytes → Bytes) (p : Protect) (n : Nat) (b : Bytes) : (p.rc4 md5 n b).2.length = b.length := by
  unfold Protect.rc4
  cases hc : p.cipher with
  | none => exact rc4_xor_length _ _
  | some c =>
    dsimp only
    by_cases hn : p.rc4n ≠ n
    · simp only [hn, if_true, ne_eq, not_false_eq_true]; exact rc4_xor_length _ _
    · simp only [ne_eq, not_not] at hn
      simp only [hn, ne_eq, not_true_eq_false, if_false, hc]; exact rc4_xor_length _ _

theorem ofix_protect (f : Fpdf) (p : Protect) (h : ({ p with cipher := none, rc4n := 0 } : Protect) = { f.m.protect with cipher := none, rc4n := 0 }) :
    ofix { f with m.protect := p } = ofix f := by
  show ({ f with buffer := [], panicked := false, m := { f.m with protect := { p with cipher := none, rc4n := 0 } } } : Fpdf) = _
  rw [h]
  rfl

theorem rc4_n (md5 : Bytes → Bytes) (p : Protect) (n : Nat) (b : Bytes) : (p.rc4 md5 n b).1.rc4n = n := by
  unfold Protect.rc4
  cases hc : p.cipher with
  | none => rfl
  | some c =>
    dsimp only
    by_cases hn : p.rc4n ≠ n
    · simp only [hn, if_true, ne_eq, not_false_eq_true]
    · simp only [ne_eq, not_not] at hn
      simp [hn, hc]

theorem rc4_ok (md5 : Bytes → Bytes) (f : Fpdf) (b : Bytes) : RcOk f { f with m.protect := (f.m.protect.rc4 md5 f.n b).1 } := by
  intro _
  show (f.m.protect.rc4 md5 f.n b).1.rc4n ≤ f.n
  rw [rc4_n]

theorem Pl.textstring (md5 : Bytes → Bytes) {f g : Fpdf} (h : Pl f g) (s : Bytes) : Pl f (g.textstring md5 s).1 := by
  refine h.trans ?_
  unfold Fpdf.textstring
  split
  · exact Pl.upd rfl (ofix_protect g _ (rc4_fix _ _ _ _)) (rc4_ok _ _ _)
  · exact Pl.refl g

theorem Pl.noteU16 {f g : Fpdf} (h : Pl f g) (s : Bytes) : Pl f (g.noteU16 s) := h.trans (Pl.upd rfl rfl)

/-- What `putstream` writes: the data, encrypted if the document is protected. -/
theorem putstream_out (md5 : Bytes → Bytes) (f : Fpdf) (hs : f.state = 1) (b : Bytes) :
    ∃ b', Out f (f.putstream md5 b) (B "stream\n" ++ b' ++ B "\nendstream\n") ∧ b'.length = b.length ∧
      b' = if f.m.protect.encrypted then (f.m.protect.rc4 md5 f.n b).2 else b := by
  unfold Fpdf.putstream
  have key : ∀ (g : Fpdf) (b' : Bytes), Out f g [] → Out f (((g.outs "stream").out b').outs "endstream") (B "stream\n" ++ b' ++ B "\nendstream\n") := by
    intro g b' hg
    have hgs := hg.state.trans hs
    have h1 := Out.out hgs (B "stream")
    have h2 := Out.out (h1.state.trans hgs) b'
    have h3 := Out.out (h2.state.trans (h1.state.trans hgs)) (B "endstream")
    have h4 := hg.trans (h1.trans (h2.trans h3))
    have e : ([] ++ (B "stream" ++ [10] ++ (b' ++ [10] ++ (B "endstream" ++ [10])))) = B "stream\n" ++ b' ++ B "\nendstream\n" := by
      have e1 : B "stream\n" = B "stream" ++ [10] := rfl
      have e2 : B "\nendstream\n" = [10] ++ B "endstream" ++ [10] := rfl
      rw [e1, e2]; simp [List.append_assoc]
    rw [← e]; exact h4
  by_cases he : f.m.protect.encrypted = true
  · rw [if_pos he]
    dsimp only
    refine ⟨_, key _ _ ⟨by simp, ofix_protect f _ (rc4_fix _ _ _ _), rc4_ok _ _ _⟩, rc4_length _ _ _ _, by simp [he]⟩
  · rw [if_neg he]
    exact ⟨b, key f b (Out.refl f), rfl, by simp [he]⟩

/-! ### Objects -/

theorem natDec_decimal (n : Nat) : natDec n = decimal n := by
  unfold decimal B
  show natDec n = List.map _ (Nat.repr n).toList
  rw [show (Nat.repr n).toList = Nat.toDigits 10 n by simp [Nat.repr]]
  have hd : ∀ m : Fin 10, [UInt8.ofNat (48 + m.val)] = List.map (fun c : Char => UInt8.ofNat c.toNat) [Nat.digitChar m.val] := by decide
  induction n using Nat.strongRecOn with
  | ind n ih =>
    rw [natDec]
    split
    · rename_i h
      rw [Nat.toDigits_of_lt_base h]
      exact hd ⟨n, h⟩
    · rename_i h
      rw [Nat.toDigits_of_base_le (by omega) (by omega), List.map_append, ih (n / 10) (by omega)]
      congr 1
      exact hd ⟨n % 10, by omega⟩

/-- The bytes of an object. -/
def objBytes (n : Nat) (b : Body) : Bytes := natDec n ++ B " 0 obj\n" ++ b.bytes ++ B "endobj\n"

/-- The bytes of consecutively numbered objects. -/
def objsBytes : Nat → List Body → Bytes
  | _, [] => []
  | n, b :: r => objBytes n b ++ objsBytes (n + 1) r

theorem objsBytes_append (n : Nat) (a b : List Body) : objsBytes n (a ++ b) = objsBytes n a ++ objsBytes (n + a.length) b := by
  induction a generalizing n with
  | nil => simp [objsBytes]
  | cons x a ih =>
    simp only [List.cons_append, objsBytes, ih, List.length_cons, List.append_assoc]
    rw [show n + 1 + a.length = n + (a.length + 1) by omega]

/-- The document without what the writer changes between objects. -/
def wfix (f : Fpdf) : Fpdf :=
  { ofix f with
    err := none, n := 0, offsets := [], l := { (ofix f).l with attachments := [], heap := [] }
    m := { (ofix f).m with nJs := 0, outlineRoot := 0, pdfVersion := 3, protect := { (ofix f).m.protect with objNum := 0 } }
    t := { (ofix f).t with fonts := [], fontFiles := [] }
    r := { (ofix f).r with blendList := [], gradientList := [], spotColorMap := [], imgHeap := [], templateObjects := [] }
    layer := { (ofix f).layer with list := [] } }

theorem wfix_of_ofix {f g : Fpdf} (h : ofix g = ofix f) : wfix g = wfix f := by
  unfold wfix; rw [h]

theorem wfix_state {f g : Fpdf} (h : wfix g = wfix f) : g.state = f.state := by
  have := congrArg (fun x : Fpdf => x.state) h; exact this

/-- The objects `objs`, numbered from `f.n + 1`, were written. -/
structure W (f g : Fpdf) (objs : List Body) : Prop where
  buf : g.buffer = f.buffer ++ objsBytes (f.n + 1) objs
  n : g.n = f.n + objs.length
  fix : wfix g = wfix f
  len : f.offsets.length ≤ f.n + 1 → g.offsets.length ≤ g.n + 1 ∧ (objs ≠ [] → g.offsets.length = g.n + 1) ∧ f.offsets.length ≤ g.offsets.length
  old : ∀ j, j ≤ f.n → g.offsets.getD j 0 = f.offsets.getD j 0
  new : ∀ i, i < objs.length → g.offsets.getD (f.n + 1 + i) 0 = f.buffer.length + (objsBytes (f.n + 1) (objs.take i)).length
  ok : ∀ b ∈ objs, b.Ok
  rc : RcOk f g

theorem W.state {f g : Fpdf} {o : List Body} (h : W f g o) : g.state = f.state := wfix_state h.fix

theorem W.refl (f : Fpdf) : W f f [] :=
  ⟨by simp [objsBytes], by simp, rfl, fun h => ⟨h, by simp, Nat.le_refl _⟩, fun _ _ => rfl, by simp, by simp, id⟩

theorem W.trans {f g h : Fpdf} {a b : List Body} (h1 : W f g a) (h2 : W g h b) : W f h (a ++ b) := by
  refine ⟨?_, ?_, h2.fix.trans h1.fix, ?_, ?_, ?_, ?_, fun h => h2.rc (h1.rc h)⟩
  · rw [h2.buf, h1.buf, objsBytes_append, h1.n, List.append_assoc, show f.n + a.length + 1 = f.n + 1 + a.length by omega]
  · rw [h2.n, h1.n, List.length_append]; omega
  · intro hl
    obtain ⟨p1, p2, p3⟩ := h1.len hl
    obtain ⟨q1, q2, q3⟩ := h2.len p1
    refine ⟨q1, fun hne => ?_, Nat.le_trans p3 q3⟩
    by_cases hb : b = []
    · have ha : a ≠ [] := by intro ha; exact hne (by simp [ha, hb])
      have hn : h.n = g.n := by rw [h2.n, hb]; simp
      have := p2 ha
      omega
    · exact q2 hb
  · intro j hj
    rw [h2.old j (by rw [h1.n]; omega), h1.old j hj]
  · intro i hi
    by_cases hia : i < a.length
    · rw [h2.old _ (by rw [h1.n]; omega), h1.new i hia, List.take_append_of_le_length (by omega)]
    · have h3 := h2.new (i - a.length) (by rw [List.length_append] at hi; omega)
      rw [h1.n, show f.n + a.length + 1 + (i - a.length) = f.n + 1 + i by omega] at h3
      rw [h3, h1.buf, List.take_append, List.take_of_length_le (l := a) (i := i) (by omega), objsBytes_append]
      simp only [List.length_append]
      rw [show f.n + a.length + 1 = f.n + 1 + a.length by omega]
      omega
  · intro x hx
    rcases List.mem_append.mp hx with hx | hx
    · exact h1.ok x hx
    · exact h2.ok x hx

theorem intDec_ofNat (n : Nat) : intDec (n : Int) = natDec n := by
  unfold intDec
  rw [if_neg (by omega)]
  simp

/-- What `newobj` does. -/
theorem newobj_spec (f : Fpdf) (hs : f.state = 1) :
    (f.newobj).buffer = f.buffer ++ natDec (f.n + 1) ++ B " 0 obj\n" ∧ f.newobj.n = f.n + 1 ∧
    f.newobj.offsets = (f.offsets ++ List.replicate (f.n + 1 + 1 - f.offsets.length) 0).set (f.n + 1) f.buffer.length ∧ f.newobj.state = 1 ∧
    ofix f.newobj = { ofix f with n := f.n + 1, offsets := f.newobj.offsets } := by
  unfold Fpdf.newobj Fpdf.outf Fpdf.out
  simp only [hs, show ¬ ((1 : Nat) = 2) by omega, if_false]
  have e : sprintf "%d 0 obj" [.d ((f.n + 1 : Nat) : Int)] ++ [10] = natDec (f.n + 1) ++ B " 0 obj\n" := by
    have : sprintf "%d 0 obj" [.d ((f.n + 1 : Nat) : Int)] = intDec ((f.n + 1 : Nat) : Int) ++ B " 0 obj" := sprintfB_of_render _ _ _ rfl
    rw [this, intDec_ofNat, List.append_assoc]; rfl
  refine ⟨?_, trivial, trivial, trivial, ?_⟩
  rotate_left
  · unfold ofix; simp only [hs]
  rw [List.append_assoc, e, List.append_assoc]

/-- An object. -/
theorem W.obj {f g h : Fpdf} (hs : f.state = 1) {b : Body} (hg : Out f.newobj g (b.bytes ++ B "endobj\n")) (hok : b.Ok)
    (hh : wfix h = wfix g) (hbuf : h.buffer = g.buffer) (hn : h.n = g.n) (ho : h.offsets = g.offsets) (hr : RcOk g h) : W f h [b] := by
  obtain ⟨h1, h2, h3, h4, h5⟩ := newobj_spec f hs
  have hl : (f.offsets ++ List.replicate (f.n + 1 + 1 - f.offsets.length) 0).length = max f.offsets.length (f.n + 2) := by
    simp; omega
  refine ⟨?_, ?_, ?_, ?_, ?_, ?_, ?_, ?_⟩
  · rw [hbuf, hg.buf, h1]
    simp [objsBytes, objBytes, List.append_assoc]
  · rw [hn, hg.n, h2]; rfl
  · rw [hh, wfix_of_ofix hg.fix]
    unfold wfix
    rw [h5]
  · intro hle
    rw [ho, hg.offsets, h3, hn, hg.n, h2, List.length_set, hl]
    omega
  · intro j hj
    rw [ho, hg.offsets, h3, List.getD_eq_getElem?_getD, List.getD_eq_getElem?_getD, List.getElem?_set_ne (by omega)]
    rw [List.getElem?_append]
    split
    · rfl
    · rename_i hlt
      rw [List.getElem?_eq_none (by omega : f.offsets.length ≤ j)]
      rw [List.getElem?_replicate]
      split <;> rfl
  · intro i hi
    have hi0 : i = 0 := by simp at hi; omega
    subst hi0
    rw [ho, hg.offsets, h3, List.getD_eq_getElem?_getD, List.getElem?_set_self (by rw [hl]; omega)]
    simp [objsBytes]
  · intro x hx
    rw [List.mem_singleton] at hx
    subst hx; exact hok
  · intro h
    refine hr (hg.rc ?_)
    rw [h2, show f.newobj.m.protect.rc4n = f.m.protect.rc4n by unfold Fpdf.newobj Fpdf.outf Fpdf.out; dsimp only; split <;> rfl]
    omega

/-! ### Conditional version -/

/-- Objects were written, unless an error was recorded. -/
structure Writes (f g : Fpdf) : Prop where
  latch : f.err ≠ none → g.err ≠ none
  w : f.state = 1 → g.err = none → ∃ objs, W f g objs

theorem Writes.refl (f : Fpdf) : Writes f f := ⟨id, fun _ _ => ⟨[], W.refl f⟩⟩
theorem Writes.trans {f g h : Fpdf} (h1 : Writes f g) (h2 : Writes g h) : Writes f h :=
  ⟨fun he => h2.latch (h1.latch he), fun hs he => by
    have hge : g.err = none := by
      cases hc : g.err with
      | none => rfl
      | some e => exact absurd he (h2.latch (by simp [hc]))
    obtain ⟨a, ha⟩ := h1.w hs hge
    obtain ⟨b, hb⟩ := h2.w (ha.state.trans hs) he
    exact ⟨_, ha.trans hb⟩⟩
theorem Writes.ite {f g h : Fpdf} {c : Prop} [Decidable c] (h1 : c → Writes f g) (h2 : ¬ c → Writes f h) : Writes f (if c then g else h) := by
  split
  · exact h1 ‹_›
  · exact h2 ‹_›
theorem Writes.foldl {α} (F : Fpdf → α → Fpdf) (h : ∀ f a, Writes f (F f a)) (l : List α) (f : Fpdf) : Writes f (l.foldl F f) := by
  induction l generalizing f with
  | nil => exact Writes.refl f
  | cons a l ih => exact (h f a).trans (ih _)
/-- A change of parts that no object depends on structurally. -/
theorem Writes.upd {f g : Fpdf} (he : f.err ≠ none → g.err ≠ none) (hb : g.buffer = f.buffer) (hn : g.n = f.n) (ho : g.offsets = f.offsets)
    (hf : wfix g = wfix f) (hr : RcOk f g := by exact id) : Writes f g :=
  ⟨he, fun _ _ => ⟨[], by simp [objsBytes, hb], by simp [hn], hf, fun h => by rw [ho, hn]; exact ⟨h, by simp, Nat.le_refl _⟩, fun _ _ => by rw [ho],
    by simp, by simp, hr⟩⟩
theorem Writes.fail {f g : Fpdf} (he : g.err ≠ none) : Writes f g := ⟨fun _ => he, fun _ h => absurd h he⟩

/-- Inside an object: like `Pl`, but fields the writer sets may change. -/
structure Ps (f g : Fpdf) : Prop where
  err : g.err = f.err
  o : f.state = 1 → ∃ b, g.buffer = f.buffer ++ b ∧ wfix g = wfix f ∧ g.n = f.n ∧ g.offsets = f.offsets ∧ RcOk f g

theorem Pl.ps {f g : Fpdf} (h : Pl f g) : Ps f g := ⟨h.err, fun hs => by
  obtain ⟨b, hb⟩ := h.o hs
  exact ⟨b, hb.buf, wfix_of_ofix hb.fix, hb.n, hb.offsets, hb.rc⟩⟩
theorem Ps.refl (f : Fpdf) : Ps f f := (Pl.refl f).ps
theorem Ps.trans {f g h : Fpdf} (h1 : Ps f g) (h2 : Ps g h) : Ps f h := ⟨h2.err.trans h1.err, fun hs => by
  obtain ⟨a, a1, a2, a3, a4, a5⟩ := h1.o hs
  obtain ⟨b, b1, b2, b3, b4, b5⟩ := h2.o ((wfix_state a2).trans hs)
  exact ⟨a ++ b, by rw [b1, a1, List.append_assoc], b2.trans a2, b3.trans a3, b4.trans a4, fun h => b5 (a5 h)⟩⟩
theorem Ps.upd {f g : Fpdf} (hb : g.buffer = f.buffer) (hf : wfix g = wfix f) (hn : g.n = f.n) (ho : g.offsets = f.offsets) (he : g.err = f.err)
    (hr : RcOk f g := by exact id) : Ps f g := ⟨he, fun _ => ⟨[], by simp [hb], hf, hn, ho, hr⟩⟩
theorem Ps.pl {f g h : Fpdf} (h1 : Ps f g) (h2 : Pl g h) : Ps f h := h1.trans h2.ps
theorem Ps.out {f g : Fpdf} (h : Ps f g) (s : Bytes) : Ps f (g.out s) := h.pl ((Pl.refl g).out s)
theorem Ps.outs {f g : Fpdf} (h : Ps f g) (s : String) : Ps f (g.outs s) := h.out _
theorem Ps.outf {f g : Fpdf} (h : Ps f g) (s : String) (a : List Arg) : Ps f (g.outf s a) := h.out _
theorem Ps.ite {f g h : Fpdf} {c : Prop} [Decidable c] (h1 : c → Ps f g) (h2 : ¬ c → Ps f h) : Ps f (if c then g else h) := by
  split
  · exact h1 ‹_›
  · exact h2 ‹_›
/-- An optional step. -/
theorem Ps.opt {f g h : Fpdf} {c : Prop} [Decidable c] (h1 : Ps f g) (h2 : Ps g h) : Ps f (if c then h else g) := by
  split
  · exact h1.trans h2
  · exact h1

theorem newobj_err (f : Fpdf) : f.newobj.err = f.err := by
  unfold Fpdf.newobj Fpdf.outf Fpdf.out
  dsimp only
  split <;> rfl

/-- The bytes between `newobj` and `endobj` are given. -/
theorem Writes.body {f g : Fpdf} (he : f.err ≠ none → g.err ≠ none)
    (hg : f.state = 1 → ∃ b : Body, b.Ok ∧ g.buffer = f.newobj.buffer ++ (b.bytes ++ B "endobj\n") ∧ wfix g = wfix f.newobj ∧ g.n = f.newobj.n ∧
      g.offsets = f.newobj.offsets ∧ RcOk f.newobj g) : Writes f g := by
  refine ⟨he, fun hs _ => ?_⟩
  obtain ⟨b, hok, h1, h2, h3, h4, h5⟩ := hg hs
  let g0 : Fpdf := { f.newobj with buffer := f.newobj.buffer ++ (b.bytes ++ B "endobj\n") }
  exact ⟨[b], W.obj hs (g := g0) ⟨rfl, rfl, id⟩ hok h2 h1 h3 h4 h5⟩

theorem newobj_state (f : Fpdf) : f.newobj.state = f.state := by
  unfold Fpdf.newobj Fpdf.outf Fpdf.out
  dsimp only
  split <;> rfl

/-- A plain object. -/
theorem Writes.plain {f g : Fpdf} (h : Ps f.newobj g) : Writes f (g.outs "endobj") := by
  refine Writes.body ?_ (fun hs => ?_)
  · intro hf
    rw [show (g.outs "endobj").err = g.err from out_err' g _, h.err, newobj_err]
    exact hf
  · obtain ⟨b, b1, b2, b3, b4, b5⟩ := h.o ((newobj_state f).trans hs)
    have hgs : g.state = 1 := (wfix_state b2).trans ((newobj_state f).trans hs)
    have ho := Out.out hgs (B "endobj")
    refine ⟨.plain b, trivial, ?_, (wfix_of_ofix ho.fix).trans b2, ho.n.trans b3, ho.offsets.trans b4, fun h => ho.rc (b5 h)⟩
    exact ho.buf.trans (by rw [b1, List.append_assoc]; rfl)

/-- Inside an object, up to and including a declaration of the length of a stream. -/
structure Ln (len : Nat) (f g : Fpdf) : Prop where
  err : g.err = f.err
  o : f.state = 1 → ∃ b, g.buffer = f.buffer ++ b ∧ Declares b len ∧ wfix g = wfix f ∧ g.n = f.n ∧ g.offsets = f.offsets ∧ RcOk f g

theorem Declares_left {b : Bytes} {n : Nat} (h : Declares b n) (a : Bytes) : Declares (a ++ b) n := by
  obtain ⟨p, ds, c, q, h1, h2⟩ := h
  exact ⟨a ++ p, ds, c, q, by rw [h1]; simp [List.append_assoc], h2⟩
theorem Declares_right {b : Bytes} {n : Nat} (h : Declares b n) (a : Bytes) : Declares (b ++ a) n := by
  obtain ⟨p, ds, c, q, h1, h2⟩ := h
  exact ⟨p, ds, c, q ++ a, by rw [h1]; simp [List.append_assoc], h2⟩
theorem Declares_mk (p : Bytes) (n : Nat) (c : UInt8) (q : Bytes) (hc : isDigit c = false) : Declares (p ++ B "/Length " ++ natDec n ++ c :: q) n :=
  ⟨p, natDec n, c, q, rfl, (natDec_spec n).1, (natDec_spec n).2.1, (natDec_spec n).2.2, hc⟩

/-- The declaration itself. -/
theorem Ps.len {len : Nat} {f g : Fpdf} (h1 : Ps f g) (s : Bytes) (h : Declares (s ++ [10]) len) : Ln len f (g.out s) := ⟨(out_err' g s).trans h1.err, fun hs => by
  obtain ⟨a, a1, a2, a3, a4, a5⟩ := h1.o hs
  have ho := Out.out ((wfix_state a2).trans hs) s
  exact ⟨a ++ (s ++ [10]), by rw [ho.buf, a1, List.append_assoc], Declares_left h a, (wfix_of_ofix ho.fix).trans a2, ho.n.trans a3, ho.offsets.trans a4, fun h => ho.rc (a5 h)⟩⟩
theorem Ln.ps {len : Nat} {f g h : Fpdf} (h1 : Ln len f g) (h2 : Ps g h) : Ln len f h := ⟨h2.err.trans h1.err, fun hs => by
  obtain ⟨a, a1, ad, a2, a3, a4, a5⟩ := h1.o hs
  obtain ⟨b, b1, b2, b3, b4, b5⟩ := h2.o ((wfix_state a2).trans hs)
  exact ⟨a ++ b, by rw [b1, a1, List.append_assoc], Declares_right ad b, b2.trans a2, b3.trans a3, b4.trans a4, fun h => b5 (a5 h)⟩⟩
theorem Ln.out {len : Nat} {f g : Fpdf} (h : Ln len f g) (s : Bytes) : Ln len f (g.out s) := h.ps ((Ps.refl g).out s)
theorem Ln.outs {len : Nat} {f g : Fpdf} (h : Ln len f g) (s : String) : Ln len f (g.outs s) := h.out _
theorem Ln.outf {len : Nat} {f g : Fpdf} (h : Ln len f g) (s : String) (a : List Arg) : Ln len f (g.outf s a) := h.out _
theorem Ln.opt {len : Nat} {f g h : Fpdf} {c : Prop} [Decidable c] (h1 : Ln len f g) (h2 : Ps g h) : Ln len f (if c then h else g) := by
  split
  · exact h1.ps h2
  · exact h1

/-- A stream object. -/
theorem Writes.stream {f g : Fpdf} (md5 : Bytes → Bytes) (data : Bytes) (h : Ln data.length f.newobj g) :
    Writes f ((g.putstream md5 data).outs "endobj") := by
  have hpe : ((g.putstream md5 data).outs "endobj").err = g.err := by
    unfold Fpdf.putstream Fpdf.outs
    dsimp only
    rw [out_err', out_err', out_err', out_err']
    split <;> rfl
  refine Writes.body ?_ (fun hs => ?_)
  · intro hf; rw [hpe, h.err, newobj_err]; exact hf
  · obtain ⟨b, b1, bd, b2, b3, b4, b5⟩ := h.o ((newobj_state f).trans hs)
    have hgs : g.state = 1 := (wfix_state b2).trans ((newobj_state f).trans hs)
    obtain ⟨b', hp, hl, _⟩ := putstream_out md5 g hgs data
    have ho := Out.out (hp.state.trans hgs) (B "endobj")
    have hh := hp.trans ho
    refine ⟨.stream b b', ?_, ?_, (wfix_of_ofix hh.fix).trans b2, hh.n.trans b3, hh.offsets.trans b4, fun h => hh.rc (b5 h)⟩
    · show Declares b b'.length
      rw [hl]; exact bd
    · refine hh.buf.trans ?_
      rw [b1, Body.bytes]
      simp only [List.append_assoc]; rfl

end Verif.Proof
