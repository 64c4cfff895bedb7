import Verif.Props.SourceSha1
import Verif.Props.Sha1Message
/-
C133 with C39 and C95: the text of sha1.py from `SHA1(...)` to the seed.
-/
namespace Verif.Py
open Verif.Sha1 Verif.Spec.Sha1

/-- a call of one of the four setters, with arguments of the annotated types -/
inductive SetCall where
  | button (button : BitVec 32)
  | date (year : BitVec 16) (month day dayOfWeek : BitVec 8)
  | timer0 (timer0 : BitVec 32) (vcount : BitVec 8)
  | time (hour minute second : BitVec 8)

/-- the method and the arguments -/
def SetCall.text : SetCall → String × List Val
  | .button b => ("set_button", [.sc false 32 b])
  | .date y m d w => ("set_date", [.sc false 16 y, .sc false 8 m, .sc false 8 d, .sc false 8 w])
  | .timer0 t v => ("set_timer0", [.sc false 32 t, .sc false 8 v])
  | .time h m s => ("set_time", [.sc false 8 h, .sc false 8 m, .sc false 8 s])

/-- the same call in the words of C95 -/
def SetCall.op : SetCall → Op
  | .button b => .setButton b
  | .date y m d w => .setDate y m d w
  | .timer0 t v => .setTimer0 t v
  | .time h m s => .setTime h m s

/-- a call that does not make `alpha` stale (C39): the method and the arguments -/
def lightText (alpha : Val) : LightOp → String × List Val
  | .setButton b => ("set_button", [.sc false 32 b])
  | .setTime h m s => ("set_time", [.sc false 8 h, .sc false 8 m, .sc false 8 s])
  | .hashSeed => ("hash_seed", [alpha])

/-- the text of these methods, one call after the other; exceptions are caught by the caller -/
def callAll (mode : Mode) (junk : Mem) (fuel depth : Nat) (calls : List (String × List Val)) (w : World) : World :=
  calls.foldl (fun w c => (run (Sha1.prog mode junk) mode fuel depth c.1 c.2 w).2) w

theorem setCalls_rep (mode : Mode) (junk : Mem) (fuel depth : Nat) (hd : 4 ≤ depth) (K : List (String × Arr)) (l : List (String × Val)) (calls : List SetCall) :
    ∀ s o, Sha1.Rep K s o → ∃ o', Sha1.Rep K ((calls.map SetCall.op).foldl (Op.run mode) s) o' ∧
      callAll mode junk fuel depth (calls.map SetCall.text) (o.world l) = o'.world l := by
  induction calls with
  | nil => exact fun s o h => ⟨o, h, rfl⟩
  | cons c calls ih =>
    intro s o h
    have one : ∃ o', Sha1.Rep K (c.op.run mode s) o' ∧ (run (Sha1.prog mode junk) mode fuel depth c.text.1 c.text.2 (o.world l)).2 = o'.world l := by
      obtain ⟨c1, c2, c3, c4, -⟩ := C133_sha1 mode junk K s
      cases c with
      | button b =>
        obtain ⟨o', h1, h2⟩ := c1 b fuel depth (by omega) (by omega) o h
        exact ⟨o', h1, by rw [SetCall.text, h2]⟩
      | timer0 t v =>
        obtain ⟨o', h1, h2⟩ := c2 t v fuel depth (by omega) (by omega) o h
        exact ⟨o', h1, by rw [SetCall.text, h2]⟩
      | date y m d w =>
        obtain ⟨o', h1, h2⟩ := c3 y m d w fuel depth (by omega) (by omega) o h
        exact ⟨o', h1, by rw [SetCall.text, h2]⟩
      | time hh m s =>
        obtain ⟨o', h1, h2⟩ := c4 hh m s fuel depth (by omega) (by omega) o h
        exact ⟨o', h1, by rw [SetCall.text, h2]⟩
    obtain ⟨o1, h1, e1⟩ := one
    obtain ⟨o2, h2, e2⟩ := ih _ o1 h1
    refine ⟨o2, h2, ?_⟩
    rw [← e2, ← e1]
    rfl

theorem lightCalls_rep (mode : Mode) (junk : Mem) (fuel depth : Nat) (hd : 4 ≤ depth) (K : List (String × Arr)) (l : List (String × Val)) (alpha : Alpha)
    (x : String) (hx : Sha1.AlphaAt alpha x K) (calls : List LightOp) :
    ∀ s o, Sha1.Rep K s o → ∃ o', Sha1.Rep K ((calls.map (LightOp.op alpha)).foldl (Op.run mode) s) o' ∧
      callAll mode junk fuel depth (calls.map (lightText (.arr x))) (o.world l) = o'.world l := by
  induction calls with
  | nil => exact fun s o h => ⟨o, h, rfl⟩
  | cons c calls ih =>
    intro s o h
    have one : ∃ o', Sha1.Rep K ((c.op alpha).run mode s) o' ∧
        (run (Sha1.prog mode junk) mode fuel depth (lightText (.arr x) c).1 (lightText (.arr x) c).2 (o.world l)).2 = o'.world l := by
      obtain ⟨c1, -, -, c4, -, c6⟩ := C133_sha1 mode junk K s
      cases c with
      | setButton b =>
        obtain ⟨o', h1, h2⟩ := c1 b fuel depth (by omega) (by omega) o h
        exact ⟨o', h1, by rw [lightText, h2]⟩
      | setTime hh m s =>
        obtain ⟨o', h1, h2⟩ := c4 hh m s fuel depth (by omega) (by omega) o h
        exact ⟨o', h1, by rw [lightText, h2]⟩
      | hashSeed =>
        obtain ⟨o', h1, h2⟩ := c6 alpha x hx fuel depth (by omega) (by omega) o h
        exact ⟨o', h1, by rw [lightText, h2]⟩
    obtain ⟨o1, h1, e1⟩ := one
    obtain ⟨o2, h2, e2⟩ := ih _ o1 h1
    refine ⟨o2, h2, ?_⟩
    rw [← e2, ← e1]
    rfl

/-- C133 with C39 and C95: the text of sha1.py, compiled or not, whatever new arrays contain. Construct an object, call any setters, then
`alpha = precompute()`, then any of `set_button`, `set_time` and `hash_seed(alpha)`; each setting has been made at least once. Then
`hash_seed(alpha)` returns the Gen 5 seed of the standard SHA-1 of the message bytes for the constructor's arguments and the last accepted values. -/
theorem C133_sha1_seed (mode : Mode) (junk : Mem) (v l d mac vf gx : Val) (n : BitVec 32) (L : Language) (t : DSType) (x : BitVec 64) (reset : Bool)
    (f g : BitVec 8) (hv : Sha1.Stands 32 v n) (hl : Sha1.Stands 8 l (Sha1.langNum L)) (hd : Sha1.Stands 8 d (Sha1.dsNum t))
    (hx : cast u64 mac = .ok (.sc false 64 x)) (hf : cast u8 vf = .ok (.sc false 8 f)) (hg : cast u8 gx = .ok (.sc false 8 g))
    (fuel depth : Nat) (hdepth : 4 ≤ depth) (K : List (String × Arr)) (hK : Sha1.Loaded K) (fields loc : List (String × Val))
    (sets : List SetCall) (light : List LightOp)
    (button : BitVec 32) (hb : ∀ alpha, last Op.button (sets.map SetCall.op ++ [.precompute] ++ light.map (LightOp.op alpha)) = some button)
    (timer : BitVec 32 × BitVec 8) (ht : ∀ alpha, last Op.timer (sets.map SetCall.op ++ [.precompute] ++ light.map (LightOp.op alpha)) = some timer)
    (h16 : timer.1.toNat < 65536)
    (date : Nat × Nat × Nat × BitVec 8) (hdt : ∀ alpha, last Op.date (sets.map SetCall.op ++ [.precompute] ++ light.map (LightOp.op alpha)) = some date)
    (time : Nat × Nat × Nat) (htm : ∀ alpha, last Op.time (sets.map SetCall.op ++ [.precompute] ++ light.map (LightOp.op alpha)) = some time) :
    ∃ w alpha w', run (Sha1.prog mode junk) mode fuel depth "__init__" [v, l, d, mac, .bool reset, vf, gx] ⟨loc, fields, K⟩ = (.ok .none, w) ∧
      run (Sha1.prog mode junk) mode fuel depth "precompute" [] (callAll mode junk fuel depth (sets.map SetCall.text) w) = (.ok alpha, w') ∧
      (run (Sha1.prog mode junk) mode fuel depth "hash_seed" [alpha] (callAll mode junk fuel depth (light.map (lightText alpha)) w')).1
        = .ok (.sc false 64 (gen5Seed (sha1 (specMessage (getNazo (Sha1.verOf n) L t) t x reset f g button timer date time)))) := by
  obtain ⟨-, o0, r0, e0⟩ := C133_sha1_init mode junk v l d mac vf gx n L t x reset f g hv hl hd hx hf hg fuel depth hdepth K hK fields
  obtain ⟨o1, r1, e1⟩ := setCalls_rep mode junk fuel depth hdepth K loc sets _ o0 r0
  obtain ⟨-, -, -, -, hp, -⟩ := C133_sha1 mode junk K ((sets.map SetCall.op).foldl (Op.run mode) (new mode junk (Sha1.verOf n) L t x reset f g))
  obtain ⟨y, K', o2, r2, ha, -, e2⟩ := hp fuel depth (by omega) o1 r1
  obtain ⟨o3, r3, e3⟩ := lightCalls_rep mode junk fuel depth hdepth K' loc _ y ha light _ o2 r2
  refine ⟨_, .arr y, _, e0 loc, by rw [e1, e2 loc], ?_⟩
  rw [e3]
  obtain ⟨-, -, -, -, -, hh⟩ := C133_sha1 mode junk K' ((light.map (LightOp.op (precompute mode ((sets.map SetCall.op).foldl (Op.run mode)
    (new mode junk (Sha1.verOf n) L t x reset f g))).2)).foldl (Op.run mode) (precompute mode ((sets.map SetCall.op).foldl (Op.run mode)
    (new mode junk (Sha1.verOf n) L t x reset f g))).1)
  obtain ⟨o4, -, e4⟩ := hh _ y ha fuel depth (by omega) (by omega) o3 r3
  rw [e4]
  have key := C39_history mode junk (Sha1.verOf n) L t x reset f g (sets.map SetCall.op) light
  have msg := C95_message mode junk (Sha1.verOf n) L t x reset f g (sets.map SetCall.op ++ [.precompute] ++ light.map (LightOp.op
    (precompute mode ((sets.map SetCall.op).foldl (Op.run mode) (new mode junk (Sha1.verOf n) L t x reset f g))).2)) button (hb _) timer (ht _) h16 date (hdt _) time (htm _)
  rw [List.foldl_append, List.foldl_append] at msg
  simp only at key
  change message (List.foldl (Op.run mode) (precompute mode _).1 _) = _ at msg
  rw [msg] at key
  simp only [key]

/-- Not vacuous: an English White 2 on a 3DS, in compiled code; a date that is refused (in 1999) after one that is accepted, and a second time after
`precompute`. -/
example (junk : Mem) : ∃ w alpha w',
    run (Sha1.prog .numba junk) .numba 0 4 "__init__" [literal .numba 0x8000, literal .numba 0, literal .numba 2, .sc false 64 0x9BF123456, .bool false,
      .sc false 8 6, .sc false 8 6] ⟨[], [], nazoArrays⟩ = (.ok .none, w) ∧
    run (Sha1.prog .numba junk) .numba 0 4 "precompute" [] (callAll .numba junk 0 4 ([SetCall.button 0xFF2F0000, .timer0 0x666 0x3F, .date 2067 10 31 1,
      .time 1 2 3, .date 1999 1 1 1].map SetCall.text) w) = (.ok alpha, w') ∧
    (run (Sha1.prog .numba junk) .numba 0 4 "hash_seed" [alpha] (callAll .numba junk 0 4 ([LightOp.hashSeed, .setTime 23 59 58].map (lightText alpha)) w')).1
      = .ok (.sc false 64 (gen5Seed (sha1 (specMessage (getNazo .white2 .english .ds3) .ds3 0x9BF123456 false 6 6 0xFF2F0000 (0x666, 0x3F)
          (2067, 10, 31, 1) (23, 59, 58))))) :=
  C133_sha1_seed .numba junk _ _ _ _ _ _ 0x8000 .english .ds3 _ _ 6 6 ⟨by simp [py], by simp [py]⟩ ⟨by simp [py, Sha1.langNum], by simp [py, Sha1.langNum]⟩
    ⟨by simp [py, Sha1.dsNum], by simp [py, Sha1.dsNum]⟩ (by simp [cast, conv]) (by simp [cast, conv]) (by simp [cast, conv]) 0 4 (by decide) nazoArrays
    nazoArrays_loaded [] [] _ _ _ (fun _ => rfl) _ (fun _ => rfl) (by decide) _ (fun _ => rfl) _ (fun _ => rfl)

end Verif.Py
