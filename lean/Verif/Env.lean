import Verif.Rand
import Verif.Dgp

/-!
# The built-in environments (`env_mux.c`, `env_maze.c`)

`double` is a linear ordered field.  Arrays are lists or partial functions; reading
outside of them or reading a cell that was never written is undefined behaviour.
-/

namespace Xcsf

/-! ## The real multiplexer -/

section
variable {K R : Type} [Field K] [LinearOrder K] [IsStrictOrderedRing K]

/-- `struct EnvMux`, env_mux.h. -/
structure Mux (K : Type) where
  posBits : Nat
  state : List K

/-- The loop of `env_mux_init`, env_mux.c:48-50, from a given number of address bits.  The
sum is compared in floating point there, where powers of two are exact.  `fuel` bounds the
iterations: `bits` of them are always enough. -/
def muxBits (bits : Int) : Nat → Nat → Nat
  | 0, p => p
  | fuel + 1, p => if (p : Int) + 2 ^ p ≤ bits then muxBits bits fuel (p + 1) else p

/-- The number of address bits chosen by `env_mux_init`, env_mux.c:47-51. -/
def muxPosBits (bits : Int) : Nat := muxBits bits bits.toNat 1 - 1

/-- The number of inputs, env_mux.c:52; also the `x_dim` passed to `param_init`. -/
def muxLen (p : Nat) : Nat := p + 2 ^ p

/-- `env_mux_get_state`, env_mux.c:75-83, for `xDim` inputs.  The array has room for
`muxLen` numbers. -/
def muxGetState (g : Rng K R) (xDim : Nat) (m : Mux K) (r : R) : Res (Mux K × R) :=
  let d := drawN (fun r => g.uni 0 1 r) xDim r
  if xDim ≤ muxLen m.posBits then
    .ok ({ m with state := d.1 ++ m.state.drop xDim }, d.2)
  else .error .ub

/-- The address loop of `env_mux_execute`, env_mux.c:95-100: bits `i..` of `posBits`. -/
def muxAddr (state : List K) (posBits : Nat) : Nat → Nat → Nat → Res Nat
  | 0, _, pos => .ok pos
  | n + 1, i, pos => do
    let v ← getR state i
    muxAddr state posBits n (i + 1) (if 1 / 2 < v then pos + 2 ^ (posBits - 1 - i) else pos)

/-- `env_mux_execute`, env_mux.c:91-103. -/
def muxExecute (m : Mux K) (action : Int) : Res K := do
  let pos ← muxAddr m.state m.posBits m.posBits 0 m.posBits
  let v ← getR m.state pos
  let answer : Int := if 1 / 2 < v then 1 else 0
  .ok (if action = answer then 1 else 0)

end

/-! ## Mazes -/

/-- `MAX_SIZE`, env_maze.h:29. -/
abbrev mazeMax : Nat := 50

/-- `struct EnvMaze`, env_maze.h:34-42, without the array of perceptions.  Cells that were
never written are `none`, as is the width before a line ended. -/
structure Maze where
  cell : Nat → Nat → Option Char := fun _ _ => none
  xsize : Option Nat := none
  ysize : Nat := 0
  xpos : Int := 0
  ypos : Int := 0
  done : Bool := false

/-- Writing one cell, env_maze.c:119, in an array of `mazeMax` by `mazeMax`. -/
def Maze.put (m : Maze) (y x : Nat) (c : Char) : Res Maze :=
  if y < mazeMax ∧ x < mazeMax then
    .ok { m with cell := fun b a => if b = y ∧ a = x then some c else m.cell b a }
  else .error .ub

/-- The size test of the reading loop, env_maze.c:123-127. -/
def mazeFits (x y : Nat) : Bool := !(decide (mazeMax < x) || decide (mazeMax < y))

/-- The reading loop of `env_maze_init`, env_maze.c:113-128, and `ysize` (line 135). -/
def mazeRead : List Char → Nat → Nat → Maze → Res Maze
  | [], _, y, m => .ok { m with ysize := y }
  | c :: cs, x, y, m =>
    if c = '\n' then
      if mazeFits 0 (y + 1) then mazeRead cs 0 (y + 1) { m with xsize := some x }
      else .error .exit
    else do
      let m ← m.put y x c
      if mazeFits (x + 1) y then mazeRead cs (x + 1) y m else .error .exit

/-- `env_maze_init`, env_maze.c:99-140, for the contents of a file that could be read. -/
def mazeInit (file : List Char) : Res Maze := mazeRead file 0 0 {}

/-- Reading `env->maze[y][x]`. -/
def Maze.at (m : Maze) (y x : Int) : Res Char :=
  if 0 ≤ y ∧ y < mazeMax ∧ 0 ≤ x ∧ x < mazeMax then
    match m.cell y.toNat x.toNat with
    | some c => .ok c
    | none => .error .ub
  else .error .ub

/-- The toroidal coordinate `((a % n) + n) % n`, env_maze.c:197-200 and 225-228, with C's
remainder, which has the sign of the dividend. -/
def torus (a : Int) (n : Nat) : Res Int :=
  if n = 0 then .error .ub else .ok (((a.tmod n) + n).tmod n)

/-- `xsize`, uninitialised if no line of the file was ended. -/
def Maze.width (m : Maze) : Res Nat :=
  match m.xsize with
  | some w => .ok w
  | none => .error .ub

/-- The cell at an offset from the animat, env_maze.c:197-201 and 225-231, with its
coordinates. -/
def Maze.look (m : Maze) (dy dx : Int) : Res (Int × Int × Char) := do
  let w ← m.width
  let x ← torus (m.xpos + dx) w
  let y ← torus (m.ypos + dy) m.ysize
  let c ← m.at y x
  .ok (y, x, c)

section
variable {K R : Type} [Field K] [LinearOrder K] [IsStrictOrderedRing K]

/-- `env_maze_sensor`, env_maze.c:73-92. -/
def mazeSensor (c : Char) : Res K :=
  if c = '*' then .ok (1 / 10)
  else if c = 'O' then .ok (3 / 10)
  else if c = 'G' then .ok (5 / 10)
  else if c = 'F' then .ok (7 / 10)
  else if c = 'Q' then .ok (9 / 10)
  else .error .exit

/-- The offsets `(y, x)` in the order of the loops of `env_maze_get_state`,
env_maze.c:191-195. -/
def mazeAround : List (Int × Int) :=
  [(-1, -1), (-1, 0), (-1, 1), (0, -1), (0, 1), (1, -1), (1, 0), (1, 1)]

/-- The loops of `env_maze_get_state`, env_maze.c:191-206. -/
def mazeSense (m : Maze) : List (Int × Int) → Res (List K)
  | [] => .ok []
  | d :: ds => do
    let c ← m.look d.1 d.2
    let v ← mazeSensor c.2.2
    let rest ← mazeSense m ds
    .ok (v :: rest)

/-- `env_maze_get_state`, env_maze.c:186-208. -/
def mazeGetState (m : Maze) : Res (List K) := mazeSense m mazeAround

/-- The moves `(y, x)` of the eight actions: `y_moves` and `x_moves`, env_maze.c:60-65. -/
def mazeMoves : List (Int × Int) :=
  [(-1, 0), (-1, 1), (0, 1), (1, 1), (1, 0), (1, -1), (0, -1), (-1, -1)]

/-- The `switch` of `env_maze_execute`, env_maze.c:231-249. -/
def mazeEnter (m : Maze) (y x : Int) (c : Char) : Res (K × Maze) :=
  if c = 'O' ∨ c = 'Q' then .ok (0, m)
  else if c = '*' then .ok (0, { m with ypos := y, xpos := x })
  else if c = 'F' ∨ c = 'G' then .ok (1, { m with ypos := y, xpos := x, done := true })
  else .error .exit

/-- `env_maze_execute`, env_maze.c:216-251. -/
def mazeExecute (m : Maze) (action : Int) : Res (K × Maze) :=
  if action < 0 ∨ 7 < action then .error .exit
  else do
    let d ← getI mazeMoves action
    let c ← m.look d.1 d.2
    mazeEnter m c.1 c.2.1 c.2.2

/-- `env_maze_reset`, env_maze.c:158-167.  The loop has no bound in the code; here it gives up
after `fuel` tries, which is an endless loop if it happens for every `fuel`. -/
def mazeReset [FloorRing K] (g : Rng K R) (m : Maze) : Nat → R → Res (Maze × R)
  | 0, _ => .error .hang
  | fuel + 1, r => do
    let w ← m.width
    let x := g.uniInt 0 w r
    let y := g.uniInt 0 m.ysize x.2
    let c ← m.at y.1 x.1
    if c = '*' then .ok ({ m with xpos := x.1, ypos := y.1, done := false }, y.2)
    else mazeReset g { m with xpos := x.1, ypos := y.1, done := false } fuel y.2

/-- A sequence of moves: the rewards and the final state.  This is what a trial does with the
environment (`xcs_rl_trial`, xcs_rl.c), which calls `env_execute` for each chosen action. -/
def mazeWalk : List Int → Maze → Res (List K × Maze)
  | [], m => .ok ([], m)
  | a :: as, m => do
    let s ← mazeExecute m a
    let t ← mazeWalk as s.2
    .ok (s.1 :: t.1, t.2)

end
end Xcsf
