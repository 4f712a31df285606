import Verif.Env
import Verif.PropsUtil
import Verif.PropsDgp
import Verif.Demo

/-!
# C55, C56: the multiplexer and the mazes
-/

set_option linter.unusedSectionVars false

namespace Xcsf

/-- Whether a run ends with the given fault. -/
def Res.fails {α : Type} (m : Res α) (f : Fault) : Bool :=
  match m with
  | .ok _ => false
  | .error e => decide (e = f)

theorem Res.fails_iff {α : Type} {m : Res α} {f : Fault} : m.fails f = true ↔ m = .error f := by
  cases m <;> simp [Res.fails]

section
variable {K R : Type} [Field K] [LinearOrder K] [IsStrictOrderedRing K]

/-! ## C55: the multiplexer -/

/-- The bit a real input stands for. -/
def bitOf (v : K) : Nat := if 1 / 2 < v then 1 else 0

/-- The number written by some binary digits, most significant first. -/
def bigEndian : List Nat → Nat
  | [] => 0
  | b :: bs => b * 2 ^ bs.length + bigEndian bs

theorem bitOf_le (v : K) : bitOf v ≤ 1 := by unfold bitOf; split <;> simp

theorem bigEndian_lt : ∀ bs : List Nat, (∀ b ∈ bs, b ≤ 1) → bigEndian bs < 2 ^ bs.length
  | [], _ => by simp [bigEndian]
  | b :: bs, h => by
    have h1 := bigEndian_lt bs (fun c hc => h c (List.mem_cons_of_mem _ hc))
    have h2 : b ≤ 1 := h b (by simp)
    simp only [bigEndian, List.length_cons, pow_succ]
    have : b * 2 ^ bs.length ≤ 1 * 2 ^ bs.length := Nat.mul_le_mul_right _ h2
    omega

theorem muxAddr_spec (state : List K) (p : Nat) (hp : p ≤ state.length) :
    ∀ (n i pos : Nat), i + n = p →
      muxAddr state p n i pos = .ok (pos + bigEndian (((state.drop i).take n).map bitOf))
  | 0, i, pos, _ => by simp [muxAddr, bigEndian]
  | n + 1, i, pos, h => by
    have hi : i < state.length := by omega
    have hd : state.drop i = state[i] :: state.drop (i + 1) := List.drop_eq_getElem_cons hi
    unfold muxAddr
    have hg : getR state i = .ok state[i] := by unfold getR; rw [List.getElem?_eq_getElem hi]
    rw [hg]
    dsimp only [bind, Except.bind]
    rw [muxAddr_spec state p hp n (i + 1) _ (by omega), hd]
    congr 1
    simp only [List.take_succ_cons, List.map_cons, bigEndian, List.length_map, List.length_take,
      List.length_drop]
    have e1 : p - 1 - i = n := by omega
    have e2 : min n (state.length - (i + 1)) = n := by omega
    rw [e1, e2]
    unfold bitOf
    split <;> simp <;> omega

/-- **C55.**  Executing an action reads only inputs that exist, pays 1 if the action equals
the data bit selected by the number in the address bits, and 0 otherwise. -/
theorem C55_reward (m : Mux K) (h : m.state.length = muxLen m.posBits) (action : Int) :
    ∃ v, m.state[m.posBits + bigEndian ((m.state.take m.posBits).map bitOf)]? = some v ∧
      muxExecute m action = .ok (if action = (bitOf v : Int) then 1 else 0) := by
  have hp : m.posBits ≤ m.state.length := by rw [h]; exact Nat.le_add_right _ _
  have hlt := bigEndian_lt ((m.state.take m.posBits).map bitOf) (by
    intro b hb
    obtain ⟨v, _, rfl⟩ := List.mem_map.1 hb
    exact bitOf_le v)
  rw [List.length_map, List.length_take, min_eq_left hp] at hlt
  have hi : m.posBits + bigEndian ((m.state.take m.posBits).map bitOf) < m.state.length := by
    rw [h]; exact Nat.add_lt_add_left hlt _
  refine ⟨_, List.getElem?_eq_getElem hi, ?_⟩
  unfold muxExecute
  rw [muxAddr_spec m.state m.posBits hp m.posBits 0 m.posBits (by omega)]
  dsimp only [bind, Except.bind]
  rw [List.drop_zero]
  have hg : getR m.state (m.posBits + bigEndian ((m.state.take m.posBits).map bitOf)) =
      .ok m.state[m.posBits + bigEndian ((m.state.take m.posBits).map bitOf)] := by
    unfold getR; rw [List.getElem?_eq_getElem hi]
  rw [hg]
  dsimp only
  congr 1
  unfold bitOf
  split <;> simp

theorem muxBits_spec (bits : Int) : ∀ (fuel p : Nat), bits < (p : Int) + fuel + 1 →
    p ≤ muxBits bits fuel p ∧ bits < (muxLen (muxBits bits fuel p) : Int) ∧
    ∀ j, p ≤ j → j < muxBits bits fuel p → (muxLen j : Int) ≤ bits
  | 0, p, h => by
    have : (1 : Int) ≤ 2 ^ p := one_le_pow₀ (by norm_num)
    refine ⟨le_rfl, ?_, fun j h1 h2 => absurd h2 (by simp [muxBits]; omega)⟩
    simp only [muxBits, muxLen]; push_cast at h ⊢; linarith
  | fuel + 1, p, h => by
    unfold muxBits
    split
    · rename_i hc
      obtain ⟨h1, h2, h3⟩ := muxBits_spec bits fuel (p + 1) (by push_cast at h ⊢; linarith)
      refine ⟨by omega, h2, fun j hj1 hj2 => ?_⟩
      rcases Nat.eq_or_lt_of_le hj1 with rfl | hlt
      · simp only [muxLen]; push_cast; exact hc
      · exact h3 j hlt hj2
    · rename_i hc
      refine ⟨le_rfl, ?_, fun j h1 h2 => absurd h2 (by omega)⟩
      simp only [muxLen]; push_cast; linarith

/-- **C55.**  The problem chosen for a requested length is the largest multiplexer that fits:
it fits if any does, and the next one does not. -/
theorem C55_largest (bits : Int) :
    bits < (muxLen (muxPosBits bits + 1) : Int) ∧
    (3 ≤ bits → 1 ≤ muxPosBits bits ∧ (muxLen (muxPosBits bits) : Int) ≤ bits) ∧
    (bits < 3 → muxPosBits bits = 0) := by
  obtain ⟨h1, h2, h3⟩ := muxBits_spec bits bits.toNat 1 (by push_cast; omega)
  have e : muxPosBits bits + 1 = muxBits bits bits.toNat 1 := by unfold muxPosBits; omega
  refine ⟨by rw [e]; exact h2, fun hb => ?_, fun hb => ?_⟩
  · have h4 : 1 < muxBits bits bits.toNat 1 := by
      rcases Nat.eq_or_lt_of_le h1 with h | h
      · rw [← h] at h2; simp [muxLen] at h2; omega
      · exact h
    exact ⟨by omega, h3 _ (by omega) (by omega)⟩
  · by_contra hne
    have := h3 1 le_rfl (by omega)
    simp [muxLen] at this
    omega

/-- **C55.**  A new problem instance fills all inputs with numbers strictly between zero and
one. -/
theorem C55_state {g : Rng K R} (H : g.Open) (m : Mux K) (r : R)
    (h : m.state.length = muxLen m.posBits) :
    ∃ m' r', muxGetState g (muxLen m.posBits) m r = .ok (m', r') ∧
      m'.posBits = m.posBits ∧ m'.state.length = muxLen m'.posBits ∧
      ∀ v ∈ m'.state, 0 < v ∧ v < 1 := by
  obtain ⟨h1, h2⟩ := drawN_spec (f := fun r => g.uni 0 1 r) (P := fun v => 0 < v ∧ v < 1)
    (fun r => Rng.uni_range H one_pos r) (muxLen m.posBits) r
  unfold muxGetState
  dsimp only
  rw [if_pos le_rfl]
  refine ⟨_, _, rfl, rfl, ?_, ?_⟩
  · simp [h1, h]
  · intro v hv
    rw [List.mem_append] at hv
    rcases hv with hv | hv
    · exact h2 v hv
    · rw [List.drop_eq_nil_of_le (by omega)] at hv; simp at hv

/-- **C55 does not survive a configuration file.**  The environment is created first and a
configuration file is read afterwards (main.c:45-50).  If it raises `x_dim`, the next problem
instance writes past the end of the array of inputs. -/
theorem C55_xdim_overflow (g : Rng K R) (m : Mux K) (r : R) (xDim : Nat)
    (h : muxLen m.posBits < xDim) : muxGetState g xDim m r = .error .ub := by
  unfold muxGetState
  dsimp only
  rw [if_neg (by omega)]

end

/-- Six inputs: two address bits `10` select the data bit number 2. -/
def muxDemo : Mux ℚ := { posBits := 2, state := [9 / 10, 1 / 10, 0, 0, 8 / 10, 0] }

example : muxDemo.state.length = muxLen muxDemo.posBits := by decide +kernel
example : Demo.Res.test (muxExecute muxDemo 1) (fun v => decide (v = 1)) = true := by decide +kernel
example : Demo.Res.test (muxExecute muxDemo 0) (fun v => decide (v = 0)) = true := by decide +kernel
example : [muxPosBits 3, muxPosBits 6, muxPosBits 10, muxPosBits 11, muxPosBits 20, muxPosBits 37]
    = [1, 2, 2, 3, 4, 5] := by decide +kernel

/-! ## C56: mazes -/

/-- A legal maze: between 1 and 50 cells each way, each one empty, obstacle or food. -/
structure Maze.Legal (m : Maze) (w : Nat) : Prop where
  xsize : m.xsize = some w
  wpos : 0 < w
  wmax : w ≤ mazeMax
  hpos : 0 < m.ysize
  hmax : m.ysize ≤ mazeMax
  cells : ∀ y x, y < m.ysize → x < w → ∃ c, m.cell y x = some c ∧ c ∈ ['*', 'O', 'Q', 'F', 'G']

/-- The animat stands inside the maze on a cell that is not an obstacle. -/
def Maze.Stands (m : Maze) (w : Nat) : Prop :=
  0 ≤ m.xpos ∧ m.xpos < w ∧ 0 ≤ m.ypos ∧ m.ypos < m.ysize ∧
  ∃ c, m.cell m.ypos.toNat m.xpos.toNat = some c ∧ c ∈ ['*', 'F', 'G']

/-- The neighbouring cell at an offset: coordinates wrap around at the edges. -/
def Maze.neighbour (m : Maze) (w : Nat) (dy dx : Int) : Nat × Nat :=
  (((m.ypos + dy) % (m.ysize : Int)).toNat, ((m.xpos + dx) % (w : Int)).toNat)

theorem torus_eq (a : Int) {n : Nat} (h : 0 < n) : torus a n = .ok (a % (n : Int)) := by
  unfold torus
  rw [if_neg (by omega)]
  congr 1
  have hn : (0 : Int) < n := by exact_mod_cast h
  have h1 : -(n : Int) < a.tmod n := by
    have h2 := Int.lt_tmod_of_pos a hn
    omega
  have h2 : 0 ≤ a.tmod n + n := by omega
  rw [Int.tmod_eq_emod_of_nonneg h2, Int.add_emod_right]
  rw [Int.tmod_eq_emod]
  split
  · simp
  · simp [Int.natAbs_natCast, Int.sub_emod_right]

theorem Maze.look_eq {m : Maze} {w : Nat} (H : m.Legal w) (dy dx : Int) :
    ∃ c, m.cell (m.neighbour w dy dx).1 (m.neighbour w dy dx).2 = some c ∧
      c ∈ ['*', 'O', 'Q', 'F', 'G'] ∧
      m.look dy dx = .ok ((m.ypos + dy) % (m.ysize : Int), (m.xpos + dx) % (w : Int), c) := by
  have hh : (0 : Int) < m.ysize := by exact_mod_cast H.hpos
  have hw : (0 : Int) < w := by exact_mod_cast H.wpos
  have y0 := Int.emod_nonneg (m.ypos + dy) hh.ne'
  have y1 := Int.emod_lt_of_pos (m.ypos + dy) hh
  have x0 := Int.emod_nonneg (m.xpos + dx) hw.ne'
  have x1 := Int.emod_lt_of_pos (m.xpos + dx) hw
  obtain ⟨c, h1, h2⟩ := H.cells (m.neighbour w dy dx).1 (m.neighbour w dy dx).2
    (by unfold Maze.neighbour; dsimp only; omega) (by unfold Maze.neighbour; dsimp only; omega)
  refine ⟨c, h1, h2, ?_⟩
  have e : m.at ((m.ypos + dy) % (m.ysize : Int)) ((m.xpos + dx) % (w : Int)) = .ok c := by
    unfold Maze.at
    have := H.hmax
    have := H.wmax
    rw [if_pos (by unfold mazeMax at *; omega)]
    have h1' : m.cell ((m.ypos + dy) % (m.ysize : Int)).toNat ((m.xpos + dx) % (w : Int)).toNat =
      some c := h1
    rw [h1']
  unfold Maze.look Maze.width
  rw [H.xsize]
  dsimp only [bind, Except.bind]
  rw [torus_eq _ H.wpos]
  dsimp only
  rw [torus_eq _ H.hpos]
  dsimp only
  rw [e]

section
variable {K R : Type} [Field K] [LinearOrder K] [IsStrictOrderedRing K]

/-- The eight actions are the eight compass directions, clockwise from north (north is up,
towards smaller `y`). -/
theorem C56_directions :
    mazeMoves = [(-1, 0), (-1, 1), (0, 1), (1, 1), (1, 0), (1, -1), (0, -1), (-1, -1)] ∧
    (∀ dy ∈ [-1, 0, 1], ∀ dx ∈ [-1, 0, 1], (dy, dx) ≠ ((0, 0) : Int × Int) →
      mazeMoves.count (dy, dx) = 1) ∧ mazeMoves.length = 8 := by
  refine ⟨rfl, ?_, rfl⟩
  decide

/-- **C56.**  Moving: the target is the neighbour in the direction of the action, with
wrap-around.  An obstacle leaves everything as it is; an empty cell is entered without reward;
food is entered, paid with 1 and ends the trial. -/
theorem C56_move {m : Maze} {w : Nat} (H : m.Legal w) {action : Nat} (ha : action < 8) :
    ∃ d c m' v, mazeMoves[action]? = some d ∧
      m.cell (m.neighbour w d.1 d.2).1 (m.neighbour w d.1 d.2).2 = some c ∧
      mazeExecute (K := K) m (action : Int) = .ok (v, m') ∧
      (c = 'O' ∨ c = 'Q' → v = 0 ∧ m' = m) ∧
      (c = '*' → v = 0 ∧ m'.done = m.done) ∧
      (c = 'F' ∨ c = 'G' → v = 1 ∧ m'.done = true) ∧
      (c = '*' ∨ c = 'F' ∨ c = 'G' →
        m'.ypos = (m.neighbour w d.1 d.2).1 ∧ m'.xpos = (m.neighbour w d.1 d.2).2) ∧
      m'.cell = m.cell ∧ m'.xsize = m.xsize ∧ m'.ysize = m.ysize := by
  have hlen : action < mazeMoves.length := ha
  obtain ⟨c, h1, h2, h3⟩ := Maze.look_eq H mazeMoves[action].1 mazeMoves[action].2
  have hh : (0 : Int) < m.ysize := by exact_mod_cast H.hpos
  have hw : (0 : Int) < w := by exact_mod_cast H.wpos
  have y0 := Int.emod_nonneg (m.ypos + mazeMoves[action].1) hh.ne'
  have x0 := Int.emod_nonneg (m.xpos + mazeMoves[action].2) hw.ne'
  have hx : mazeExecute (K := K) m (action : Int) =
      mazeEnter m ((m.ypos + mazeMoves[action].1) % (m.ysize : Int))
        ((m.xpos + mazeMoves[action].2) % (w : Int)) c := by
    unfold mazeExecute
    rw [if_neg (by omega)]
    have hg : getI mazeMoves (action : Int) = .ok mazeMoves[action] := by
      unfold getI getR
      rw [if_pos (by omega), Int.toNat_natCast, List.getElem?_eq_getElem hlen]
    rw [hg]
    dsimp only [bind, Except.bind]
    rw [h3]
  refine ⟨mazeMoves[action], c, ?_⟩
  rw [hx]
  have hy' : ((m.neighbour w mazeMoves[action].1 mazeMoves[action].2).1 : Int) =
      (m.ypos + mazeMoves[action].1) % (m.ysize : Int) := by
    unfold Maze.neighbour; exact Int.toNat_of_nonneg y0
  have hx' : ((m.neighbour w mazeMoves[action].1 mazeMoves[action].2).2 : Int) =
      (m.xpos + mazeMoves[action].2) % (w : Int) := by
    unfold Maze.neighbour; exact Int.toNat_of_nonneg x0
  rw [hy', hx']
  simp only [List.mem_cons, List.not_mem_nil, or_false] at h2
  rcases h2 with rfl | rfl | rfl | rfl | rfl
  · exact ⟨_, _, List.getElem?_eq_getElem hlen, h1, by simp [mazeEnter]; exact ⟨rfl, rfl⟩, by simp⟩
  · exact ⟨_, _, List.getElem?_eq_getElem hlen, h1, by simp [mazeEnter]; exact ⟨rfl, rfl⟩, by simp⟩
  · exact ⟨_, _, List.getElem?_eq_getElem hlen, h1, by simp [mazeEnter]; exact ⟨rfl, rfl⟩, by simp⟩
  · exact ⟨_, _, List.getElem?_eq_getElem hlen, h1, by simp [mazeEnter]; exact ⟨rfl, rfl⟩, by simp⟩
  · exact ⟨_, _, List.getElem?_eq_getElem hlen, h1, by simp [mazeEnter]; exact ⟨rfl, rfl⟩, by simp⟩

/-- Any other action ends the program with a message. -/
theorem C56_bad_action (m : Maze) {action : Int} (h : action < 0 ∨ 8 ≤ action) :
    mazeExecute (K := K) m action = .error .exit := by
  unfold mazeExecute
  rw [if_pos (by omega)]

theorem Maze.Legal.congr {m m' : Maze} {w : Nat} (H : m.Legal w) (h1 : m'.cell = m.cell)
    (h2 : m'.xsize = m.xsize) (h3 : m'.ysize = m.ysize) : m'.Legal w :=
  ⟨by rw [h2]; exact H.xsize, H.wpos, H.wmax, by rw [h3]; exact H.hpos, by rw [h3]; exact H.hmax,
    fun y x hy hx => by rw [h1]; exact H.cells y x (by rwa [h3] at hy) hx⟩

/-- **C56.**  Whatever the actions, the animat never leaves the maze and never stands on an
obstacle; every step pays 0 or 1, and the trial is over exactly if it was before or some step
paid 1. -/
theorem C56_walk {w : Nat} : ∀ (as : List Nat) (m : Maze), m.Legal w → m.Stands w →
    (∀ a ∈ as, a < 8) →
    ∃ vs m', mazeWalk (K := K) (as.map Int.ofNat) m = .ok (vs, m') ∧ m'.Stands w ∧ m'.Legal w ∧
      m'.cell = m.cell ∧ vs.length = as.length ∧ (∀ v ∈ vs, v = 0 ∨ v = 1) ∧
      (m'.done = true ↔ m.done = true ∨ 1 ∈ vs)
  | [], m, H, S, _ => ⟨[], m, rfl, S, H, rfl, rfl, by simp, by simp⟩
  | a :: as, m, H, S, ha => by
    obtain ⟨d, c, m1, v, hd, hc, hx, c1, c2, c3, c4, e1, e2, e3⟩ :=
      C56_move (K := K) H (ha a (by simp))
    have H1 := H.congr e1 e2 e3
    have hcl : c ∈ ['*', 'O', 'Q', 'F', 'G'] := by
      obtain ⟨c', q1, q2, _⟩ := Maze.look_eq H d.1 d.2
      rw [hc] at q1; cases q1; exact q2
    have hh : (0 : Int) < m.ysize := by exact_mod_cast H.hpos
    have hw : (0 : Int) < w := by exact_mod_cast H.wpos
    have y0 := Int.emod_nonneg (m.ypos + d.1) hh.ne'
    have y1 := Int.emod_lt_of_pos (m.ypos + d.1) hh
    have x0 := Int.emod_nonneg (m.xpos + d.2) hw.ne'
    have x1 := Int.emod_lt_of_pos (m.xpos + d.2) hw
    have S1 : m1.Stands w := by
      by_cases ho : c = 'O' ∨ c = 'Q'
      · rw [(c1 ho).2]; exact S
      · have hf : c = '*' ∨ c = 'F' ∨ c = 'G' := by
          simp only [List.mem_cons, List.not_mem_nil, or_false] at hcl
          tauto
        obtain ⟨p1, p2⟩ := c4 hf
        have q1 : ((m.neighbour w d.1 d.2).1 : Int) = (m.ypos + d.1) % (m.ysize : Int) := by
          unfold Maze.neighbour; exact Int.toNat_of_nonneg y0
        have q2 : ((m.neighbour w d.1 d.2).2 : Int) = (m.xpos + d.2) % (w : Int) := by
          unfold Maze.neighbour; exact Int.toNat_of_nonneg x0
        refine ⟨by omega, by omega, by omega, by rw [e3]; omega, c, ?_, ?_⟩
        · rw [e1, p1, p2, Int.toNat_natCast, Int.toNat_natCast]; exact hc
        · simp only [List.mem_cons, List.not_mem_nil, or_false]; exact hf
    obtain ⟨vs, m', k1, k2, k3, k4, k5, k6, k7⟩ := C56_walk as m1 H1 S1
      (fun b hb => ha b (List.mem_cons_of_mem _ hb))
    refine ⟨v :: vs, m', ?_, k2, k3, k4.trans e1, by simp [k5], ?_, ?_⟩
    · simp only [List.map_cons, mazeWalk]
      have : Int.ofNat a = (a : Int) := rfl
      rw [this, hx]
      dsimp only [bind, Except.bind]
      rw [k1]
    · intro u hu
      rcases List.mem_cons.1 hu with rfl | hu
      · simp only [List.mem_cons, List.not_mem_nil, or_false] at hcl
        rcases hcl with rfl | rfl | rfl | rfl | rfl
        · exact .inl (c2 rfl).1
        · exact .inl (c1 (.inl rfl)).1
        · exact .inl (c1 (.inr rfl)).1
        · exact .inr (c3 (.inl rfl)).1
        · exact .inr (c3 (.inr rfl)).1
      · exact k6 u hu
    · rw [k7, List.mem_cons]
      simp only [List.mem_cons, List.not_mem_nil, or_false] at hcl
      have z : (1 : K) ≠ 0 := one_ne_zero
      rcases hcl with rfl | rfl | rfl | rfl | rfl
      · rw [(c2 rfl).1, (c2 rfl).2]; simp [z]
      · rw [(c1 (.inl rfl)).1, (c1 (.inl rfl)).2]; simp [z]
      · rw [(c1 (.inr rfl)).1, (c1 (.inr rfl)).2]; simp [z]
      · rw [(c3 (.inl rfl)).1, (c3 (.inl rfl)).2]; simp
      · rw [(c3 (.inr rfl)).1, (c3 (.inr rfl)).2]; simp

/-- The number a cell is perceived as. -/
def mazeCode (c : Char) : K :=
  if c = '*' then 1 / 10 else if c = 'O' then 3 / 10 else if c = 'G' then 1 / 2
  else if c = 'F' then 7 / 10 else 9 / 10

theorem mazeSense_eq {m : Maze} {w : Nat} (H : m.Legal w) : ∀ ds : List (Int × Int),
    ∃ vs, mazeSense (K := K) m ds = .ok vs ∧ vs.length = ds.length ∧
      ∀ (i : Nat) (hi : i < ds.length), ∃ c,
        m.cell (m.neighbour w (ds[i]).1 (ds[i]).2).1 (m.neighbour w (ds[i]).1 (ds[i]).2).2 = some c ∧
        vs[i]? = some (mazeCode c)
  | [] => ⟨[], rfl, rfl, fun i hi => absurd hi (by simp)⟩
  | d :: ds => by
    obtain ⟨vs, h1, h2, h3⟩ := mazeSense_eq H ds
    obtain ⟨c, c1, c2, c3⟩ := Maze.look_eq H d.1 d.2
    have hs : mazeSensor (K := K) c = .ok (mazeCode c) := by
      simp only [List.mem_cons, List.not_mem_nil, or_false] at c2
      rcases c2 with rfl | rfl | rfl | rfl | rfl <;> (simp [mazeSensor, mazeCode] <;> norm_num)
    refine ⟨mazeCode c :: vs, ?_, by simp [h2], ?_⟩
    · unfold mazeSense
      rw [c3]
      dsimp only [bind, Except.bind]
      rw [hs]
      dsimp only
      rw [h1]
    · intro i hi
      cases i with
      | zero => exact ⟨c, c1, rfl⟩
      | succ i => exact h3 i (by simpa using hi)

/-- **C56.**  The perceived state encodes the eight neighbouring cells, in reading order from
the upper left, without the own cell. -/
theorem C56_observe {m : Maze} {w : Nat} (H : m.Legal w) :
    ∃ vs, mazeGetState (K := K) m = .ok vs ∧ vs.length = 8 ∧
      ∀ (i : Nat) (d : Int × Int),
        [(-1, -1), (-1, 0), (-1, 1), (0, -1), (0, 1), (1, -1), (1, 0), (1, 1)][i]? = some d →
        ∃ c, m.cell (m.neighbour w d.1 d.2).1 (m.neighbour w d.1 d.2).2 = some c ∧
          vs[i]? = some (mazeCode c) := by
  obtain ⟨vs, h1, h2, h3⟩ := mazeSense_eq (K := K) H mazeAround
  refine ⟨vs, h1, h2, fun i d hd => ?_⟩
  obtain ⟨hi, rfl⟩ := List.getElem?_eq_some_iff.1 hd
  exact h3 i hi

/-- Different kinds of cell are perceived as different numbers, all between 0 and 1. -/
theorem C56_codes_differ : ∀ c ∈ ['*', 'O', 'Q', 'F', 'G'], ∀ d ∈ ['*', 'O', 'Q', 'F', 'G'],
    (mazeCode c : K) = mazeCode d → c = d := by
  intro c hc d hd
  simp only [List.mem_cons, List.not_mem_nil, or_false] at hc hd
  rcases hc with rfl | rfl | rfl | rfl | rfl <;> rcases hd with rfl | rfl | rfl | rfl | rfl <;>
    first
    | (intro; rfl)
    | (intro h; exfalso; revert h; simp [mazeCode]; try norm_num)

variable [FloorRing K]

/-- **C56.**  A reset puts the animat on an empty cell of the maze and changes nothing else. -/
theorem C56_reset {g : Rng K R} (Hg : g.Open) {w : Nat} : ∀ (fuel : Nat) (m : Maze) (r : R)
    (m' : Maze) (r' : R), m.Legal w → mazeReset g m fuel r = .ok (m', r') →
    m'.Legal w ∧ m'.Stands w ∧ m'.cell m'.ypos.toNat m'.xpos.toNat = some '*' ∧
    m'.done = false ∧ m'.cell = m.cell
  | 0, m, r, m', r', _, h => by cases h
  | fuel + 1, m, r, m', r', H, h => by
    have hh : (0 : Int) < m.ysize := by exact_mod_cast H.hpos
    have hw : (0 : Int) < w := by exact_mod_cast H.wpos
    obtain ⟨x0, x1⟩ := C45_random_int Hg hw r
    obtain ⟨y0, y1⟩ := C45_random_int Hg hh (g.uniInt 0 w r).2
    have hwd : m.width = .ok w := by unfold Maze.width; rw [H.xsize]
    unfold mazeReset at h
    rw [hwd] at h
    dsimp only [bind, Except.bind] at h
    obtain ⟨c, hc, _⟩ := H.cells (g.uniInt 0 m.ysize (g.uniInt 0 w r).2).1.toNat
      (g.uniInt 0 w r).1.toNat (by omega) (by omega)
    have e : m.at (g.uniInt 0 m.ysize (g.uniInt 0 w r).2).1 (g.uniInt 0 w r).1 = .ok c := by
      unfold Maze.at
      have := H.hmax
      have := H.wmax
      rw [if_pos (by unfold mazeMax at *; omega), hc]
    rw [e] at h
    dsimp only at h
    split at h
    · rename_i hs
      have h := Except.ok.inj h
      cases h
      subst hs
      exact ⟨H.congr rfl rfl rfl, ⟨x0, x1, y0, y1, '*', hc, by simp⟩, hc, rfl, rfl⟩
    · have := C56_reset Hg fuel _ _ m' r' (H.congr (m' :=
        { m with xpos := (g.uniInt 0 w r).1
                 ypos := (g.uniInt 0 m.ysize (g.uniInt 0 w r).2).1
                 done := false }) rfl rfl rfl) h
      exact this

/-- In a legal maze a reset only fails to return if it never draws an empty cell. -/
theorem C56_reset_safe {g : Rng K R} (Hg : g.Open) {w : Nat} : ∀ (fuel : Nat) (m : Maze) (r : R),
    m.Legal w → mazeReset g m fuel r = .error .hang ∨ ∃ q, mazeReset g m fuel r = .ok q
  | 0, m, r, _ => .inl rfl
  | fuel + 1, m, r, H => by
    have hh : (0 : Int) < m.ysize := by exact_mod_cast H.hpos
    have hw : (0 : Int) < w := by exact_mod_cast H.wpos
    obtain ⟨x0, x1⟩ := C45_random_int Hg hw r
    obtain ⟨y0, y1⟩ := C45_random_int Hg hh (g.uniInt 0 w r).2
    have hwd : m.width = .ok w := by unfold Maze.width; rw [H.xsize]
    unfold mazeReset
    rw [hwd]
    dsimp only [bind, Except.bind]
    obtain ⟨c, hc, _⟩ := H.cells (g.uniInt 0 m.ysize (g.uniInt 0 w r).2).1.toNat
      (g.uniInt 0 w r).1.toNat (by omega) (by omega)
    have e : m.at (g.uniInt 0 m.ysize (g.uniInt 0 w r).2).1 (g.uniInt 0 w r).1 = .ok c := by
      unfold Maze.at
      have := H.hmax
      have := H.wmax
      rw [if_pos (by unfold mazeMax at *; omega), hc]
    rw [e]
    dsimp only
    split
    · exact .inr ⟨_, rfl⟩
    · exact C56_reset_safe Hg fuel _ _ (H.congr rfl rfl rfl)

/-- A maze without an empty cell makes every reset loop for ever. -/
theorem C56_reset_hangs {g : Rng K R} (Hg : g.Open) {w : Nat} (fuel : Nat) (m : Maze) (r : R)
    (H : m.Legal w) (hn : ∀ y x, m.cell y x ≠ some '*') : mazeReset g m fuel r = .error .hang := by
  rcases C56_reset_safe Hg fuel m r H with h | ⟨⟨m', r'⟩, h⟩
  · exact h
  · obtain ⟨_, _, h3, _, h5⟩ := C56_reset Hg fuel m r m' r' H h
    rw [h5] at h3
    exact absurd h3 (hn _ _)

end

/-! ### Reading the file -/

/-- The contents of a maze file: each row followed by a line end. -/
def mazeFile (rows : List (List Char)) : List Char := rows.flatMap (· ++ ['\n'])

theorem mazeFits_iff (x y : Nat) : mazeFits x y = true ↔ x ≤ mazeMax ∧ y ≤ mazeMax := by
  simp [mazeFits]

/-- Reading the rest of one row. -/
theorem mazeRead_row (rest : List Char) (y : Nat) (hy : y < mazeMax) : ∀ (row : List Char)
    (x : Nat) (m : Maze), '\n' ∉ row → x + row.length ≤ mazeMax →
    ∃ m', mazeRead (row ++ '\n' :: rest) x y m = mazeRead rest 0 (y + 1) m' ∧
      m'.xsize = some (x + row.length) ∧
      ∀ b a, m'.cell b a = if b = y ∧ x ≤ a ∧ a < x + row.length then row[a - x]? else m.cell b a
  | [], x, m, _, _ => by
    refine ⟨{ m with xsize := some x }, ?_, rfl, ?_⟩
    · rw [List.nil_append, mazeRead, if_pos rfl, if_pos ((mazeFits_iff _ _).2 ⟨by omega, by omega⟩)]
    · intro b a
      rw [if_neg (by simp only [List.length_nil]; omega)]
  | c :: row, x, m, hn, hx => by
    simp only [List.length_cons] at hx
    have hc : c ≠ '\n' := fun h => hn (by simp [h])
    obtain ⟨m', h1, h2, h3⟩ := mazeRead_row rest y hy row (x + 1)
      { m with cell := fun b a => if b = y ∧ a = x then some c else m.cell b a }
      (fun h => hn (List.mem_cons_of_mem _ h)) (by omega)
    refine ⟨m', ?_, by rw [h2]; simp only [List.length_cons]; congr 1; omega, ?_⟩
    · simp only [List.cons_append, mazeRead]
      rw [if_neg hc]
      unfold Maze.put
      rw [if_pos ⟨hy, by omega⟩]
      dsimp only [bind, Except.bind]
      rw [if_pos ((mazeFits_iff _ _).2 ⟨by omega, by omega⟩)]
      exact h1
    · intro b a
      rw [h3]
      simp only [List.length_cons]
      by_cases hb : b = y
      · subst hb
        rcases Nat.lt_trichotomy a x with hlt | rfl | hgt
        · rw [if_neg (by omega), if_neg (by omega)]; rw [if_neg (by omega)]
        · rw [if_neg (by omega), if_pos (by omega)]; simp
        · by_cases hl : a < x + 1 + row.length
          · rw [if_pos ⟨rfl, by omega, hl⟩, if_pos ⟨rfl, by omega, by omega⟩]
            rw [show a - x = a - (x + 1) + 1 by omega, List.getElem?_cons_succ]
          · rw [if_neg (by omega), if_neg (by omega)]
            rw [if_neg (by omega)]
      · rw [if_neg (by tauto), if_neg (by tauto)]
        simp [hb]

theorem mazeRead_rows (w : Nat) (hw : w ≤ mazeMax) : ∀ (rows : List (List Char)) (y : Nat) (m : Maze),
    (∀ row ∈ rows, row.length = w ∧ '\n' ∉ row) → y + rows.length ≤ mazeMax →
    (rows = [] → m.xsize = some w) →
    ∃ m', mazeRead (mazeFile rows) 0 y m = .ok m' ∧ m'.xsize = some w ∧ m'.ysize = y + rows.length ∧
      ∀ b a, m'.cell b a =
        if y ≤ b ∧ b < y + rows.length ∧ a < w then (rows[b - y]?).bind (·[a]?) else m.cell b a
  | [], y, m, _, _, hm => by
    refine ⟨{ m with ysize := y }, rfl, hm rfl, rfl, fun b a => ?_⟩
    rw [if_neg (by simp only [List.length_nil]; omega)]
  | row :: rows, y, m, hr, hy, hm => by
    simp only [List.length_cons] at hy
    obtain ⟨hl, hn⟩ := hr row (by simp)
    obtain ⟨m1, h1, h2, h3⟩ := mazeRead_row (mazeFile rows) y (by omega) row 0 m hn (by omega)
    obtain ⟨m', k1, k2, k3, k4⟩ := mazeRead_rows w hw rows (y + 1) m1
      (fun q hq => hr q (List.mem_cons_of_mem _ hq)) (by omega)
      (fun _ => by rw [h2, hl]; simp)
    refine ⟨m', ?_, k2, by rw [k3]; simp only [List.length_cons]; omega, ?_⟩
    · have : mazeFile (row :: rows) = row ++ '\n' :: mazeFile rows := by simp [mazeFile]
      rw [this, h1]; exact k1
    · intro b a
      rw [k4, h3]
      simp only [List.length_cons, Nat.zero_add, Nat.zero_le, true_and, Nat.sub_zero, hl]
      rcases Nat.lt_trichotomy b y with hlt | rfl | hgt
      · rw [if_neg (by omega), if_neg (by omega), if_neg (by omega)]
      · rw [if_neg (by omega)]
        by_cases ha : a < w
        · rw [if_pos ⟨rfl, ha⟩, if_pos ⟨le_rfl, by omega, ha⟩]; simp
        · rw [if_neg (by tauto), if_neg (by tauto)]
      · by_cases hc : b < y + 1 + rows.length ∧ a < w
        · rw [if_pos ⟨by omega, hc⟩, if_pos ⟨by omega, by omega, hc.2⟩]
          rw [show b - y = b - (y + 1) + 1 by omega, List.getElem?_cons_succ]
        · rw [if_neg (by tauto), if_neg (by omega), if_neg (by omega)]

/-- **C56.**  A rectangular file with at most 50 rows of at most 50 cells is loaded cell by
cell, and is then a legal maze. -/
theorem C56_load (rows : List (List Char)) (w : Nat) (hw0 : 0 < w) (hw : w ≤ mazeMax)
    (h0 : rows ≠ []) (hh : rows.length ≤ mazeMax)
    (hr : ∀ row ∈ rows, row.length = w ∧ ∀ c ∈ row, c ∈ ['*', 'O', 'Q', 'F', 'G']) :
    ∃ m, mazeInit (mazeFile rows) = .ok m ∧ m.Legal w ∧ m.ysize = rows.length ∧
      ∀ (y x : Nat) (row : List Char) (c : Char), rows[y]? = some row → row[x]? = some c →
        m.cell y x = some c := by
  obtain ⟨m, h1, h2, h3, h4⟩ := mazeRead_rows w hw rows 0 {}
    (fun row hrow => ⟨(hr row hrow).1, fun hc => by
      have := (hr row hrow).2 _ hc; revert this; decide⟩) (by omega) (fun h => absurd h h0)
  have hc : ∀ (y x : Nat) (row : List Char) (c : Char), rows[y]? = some row → row[x]? = some c →
      m.cell y x = some c := by
    intro y x row c hy hx
    have hyl := (List.getElem?_eq_some_iff.1 hy).1
    have hxl := (List.getElem?_eq_some_iff.1 hx).1
    have hmem : row ∈ rows := List.mem_of_getElem? hy
    rw [h4, if_pos ⟨by omega, by omega, by rw [← (hr row hmem).1]; exact hxl⟩]
    simp [hy, hx]
  have hpos : 0 < rows.length := List.length_pos_iff.2 h0
  refine ⟨m, h1, ⟨h2, hw0, hw, by omega, by omega, ?_⟩, by omega, hc⟩
  intro y x hy hx
  have hy' : y < rows.length := by omega
  have hmem : rows[y] ∈ rows := List.getElem_mem hy'
  have hx' : x < rows[y].length := by rw [(hr _ hmem).1]; exact hx
  exact ⟨rows[y][x], hc y x _ _ (List.getElem?_eq_getElem hy') (List.getElem?_eq_getElem hx'),
    (hr _ hmem).2 _ (List.getElem_mem hx')⟩

/-- **C56 refuted for wide mazes.**  The size check comes after the write: a row of 51 cells is
written past the end of its row of the array (and a 51st row past the array) before the
program gives up. -/
theorem C56_wide_refuted : mazeInit (List.replicate 51 '*' ++ ['\n']) = .error .ub :=
  Res.fails_iff.1 (by decide +kernel)

/-- **C56 refuted for unterminated files.**  A last row without a line end is not part of the
maze: here the food cannot be found. -/
theorem C56_last_row_lost :
    Demo.Res.test (mazeInit "**\n*F".toList) (fun m => decide (m.ysize = 1)) = true := by
  decide +kernel

/-- **C56 refuted for ragged files.**  The width is that of the last row, so that cells of
shorter rows are read although they were never written. -/
theorem C56_ragged_refuted :
    (mazeInit "*\n**\n".toList >>= fun m => mazeGetState (K := ℚ) m) = .error .ub :=
  Res.fails_iff.1 (by decide +kernel)

/-- A small maze: obstacles around a corridor with food at its end. -/
def mazeDemo : List (List Char) := ["OOOO".toList, "O**F".toList, "OQQO".toList]

example : mazeDemo ≠ [] ∧ mazeDemo.length ≤ mazeMax ∧
    ∀ row ∈ mazeDemo, row.length = 4 ∧ ∀ c ∈ row, c ∈ ['*', 'O', 'Q', 'F', 'G'] := by decide +kernel

/-- Two steps east reach the food, bumping into the wall on the way. -/
example : Demo.Res.test
    (mazeInit (mazeFile mazeDemo) >>= fun m =>
      mazeWalk (K := ℚ) [0, 2, 2] { m with xpos := 1, ypos := 1 })
    (fun q => decide (q.1 = [0, 0, 1] ∧ q.2.xpos = 3 ∧ q.2.ypos = 1) && q.2.done) = true := by
  decide +kernel

end Xcsf
