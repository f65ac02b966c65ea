import Verif.Model.CodegenText

/-!
# The parsed templates

Written by `Verif/Tools/GenTree.lean`. The kernel checks that the lexer, the trimming and the parser of the model
turn the literal templates into these trees.
-/

namespace Interp.CodegenText

open Tempita

set_option maxRecDepth 20000

instance exceptDecEq {α : Type} [DecidableEq α] : DecidableEq (Except TErr α) := fun a b =>
  match a, b with
  | .ok a, .ok b => if h : a = b then isTrue (by rw [h]) else isFalse (by simpa using h)
  | .error a, .error b => if h : a = b then isTrue (by rw [h]) else isFalse (by simpa using h)
  | .ok _, .error _ => isFalse (by simp)
  | .error _, .ok _ => isFalse (by simp)

theorem parse_of {s : Str} {raw lx : List Chunk} {tree : Nodes} (h : lexRaw s = .ok raw)
    (h' : trimLex raw = lx) (h'' : parseAll (depth lx) lx = .ok tree) : parse s = .ok tree := by
  subst h'
  have : lex s = .ok (trimLex raw) := by rw [lex, h]; rfl
  rw [parse, this]
  exact h''

/-- The chunks of `evalTemplate` before trimming. -/
def pointRaw : List Chunk :=
  [.text c!"\ndef eval_spline(grid, C, points, out=None, k=1, diff=\"None\", extrap_mode='linear'):\n    \"This is my docstring\"\n\n    ",
   .code c!"if vector_valued" (5, 7),
   .text c!"\n    n_vals = C.shape[",
   .code c!"d" (6, 24),
   .text c!"]\n        ",
   .code c!"if allocate" (7, 11),
   .text c!"\n            ",
   .code c!"if orders is None" (8, 15),
   .text c!"\n    out = zeros(n_vals)\n            ",
   .code c!"else" (10, 15),
   .text c!"\n    out = zeros((n_vals, ",
   .code c!"len(orders)" (11, 28),
   .text c!"))\n            ",
   .code c!"endif" (12, 15),
   .text c!"\n        ",
   .code c!"endif" (13, 11),
   .text c!"\n    ",
   .code c!"else" (14, 7),
   .text c!"\n        ",
   .code c!"if allocate" (15, 11),
   .text c!"\n            ",
   .code c!"if orders is not None" (16, 15),
   .text c!"\n    out = zeros(",
   .code c!"len(orders)" (17, 19),
   .text c!")\n            ",
   .code c!"endif" (18, 15),
   .text c!"\n        ",
   .code c!"endif" (19, 11),
   .text c!"\n    ",
   .code c!"endif" (20, 7),
   .text c!"\n\n    #recover grid parameters\n    ",
   .code c!"for i in range(d)" (23, 7),
   .text c!"\n    ",
   .code c!"if (not grid_types) or (grid_types[i]=='uniform')" (24, 7),
   .text c!"\n    # dim ",
   .code c!"i" (25, 13),
   .text c!": uniform\n    a_",
   .code c!"i" (26, 9),
   .text c!" = grid[",
   .code c!"i" (26, 22),
   .text c!"][0]\n    b_",
   .code c!"i" (27, 9),
   .text c!" = grid[",
   .code c!"i" (27, 22),
   .text c!"][1]\n    n_",
   .code c!"i" (28, 9),
   .text c!" = grid[",
   .code c!"i" (28, 22),
   .text c!"][2]\n    δ_",
   .code c!"i" (29, 9),
   .text c!" = (n_",
   .code c!"i" (29, 20),
   .text c!"-1.0)/(b_",
   .code c!"i" (29, 34),
   .text c!"-a_",
   .code c!"i" (29, 42),
   .text c!")\n    ",
   .code c!"elif grid_types[i]=='nonuniform'" (30, 7),
   .text c!"\n    # dim ",
   .code c!"i" (31, 13),
   .text c!": nonuniform\n    gc_",
   .code c!"i" (32, 10),
   .text c!" = grid[",
   .code c!"i" (32, 23),
   .text c!"]\n    N_",
   .code c!"i" (33, 9),
   .text c!" = gc_",
   .code c!"i" (33, 20),
   .text c!".shape[0]\n    ",
   .code c!"endif" (34, 7),
   .text c!"\n    ",
   .code c!"endfor" (35, 7),
   .text c!"\n\n    # extract coordinates\n    ",
   .code c!"for i in range(d)" (38, 7),
   .text c!"\n    x_",
   .code c!"i" (39, 9),
   .text c!" = points[",
   .code c!"i" (39, 24),
   .text c!"]\n    ",
   .code c!"if extrap_mode == 'nearest'" (40, 7),
   .text c!"\n    x_",
   .code c!"i" (41, 9),
   .text c!" = max(a_",
   .code c!"i" (41, 23),
   .text c!", min(x_",
   .code c!"i" (41, 36),
   .text c!", b_",
   .code c!"i" (41, 45),
   .text c!"))\n    ",
   .code c!"endif" (42, 7),
   .text c!"\n    ",
   .code c!"if extrap_mode == 'constant'" (43, 7),
   .text c!"\n    if (x_",
   .code c!"i" (44, 13),
   .text c!"<a_",
   .code c!"i" (44, 21),
   .text c!") or (x_",
   .code c!"i" (44, 34),
   .text c!">b_",
   .code c!"i" (44, 42),
   .text c!"):\n        ",
   .code c!"if vector_valued" (45, 11),
   .text c!"\n        out[:] = 0.0\n        ",
   .code c!"if allocate" (47, 11),
   .text c!"\n        return out\n        ",
   .code c!"endif" (49, 11),
   .text c!"\n        ",
   .code c!"else" (50, 11),
   .text c!"\n        val = 0.0\n        return val\n        ",
   .code c!"endif" (53, 11),
   .text c!"\n    ",
   .code c!"endif" (54, 7),
   .text c!"\n    ",
   .code c!"endfor" (55, 7),
   .text c!"\n\n    # compute indices and barycentric coordinates\n    ",
   .code c!"for i in range(d)" (58, 7),
   .text c!"\n\n    ",
   .code c!"if (not grid_types) or (grid_types[i]=='uniform')" (60, 7),
   .text c!"\n    # dimension ",
   .code c!"i" (61, 19),
   .text c!": uniform grid\n    u_",
   .code c!"i" (62, 9),
   .text c!" = (x_",
   .code c!"i" (62, 20),
   .text c!" - a_",
   .code c!"i" (62, 30),
   .text c!")*δ_",
   .code c!"i" (62, 39),
   .text c!"\n    i_",
   .code c!"i" (63, 9),
   .text c!" = int( floor( u_",
   .code c!"i" (63, 31),
   .text c!" ) )\n    i_",
   .code c!"i" (64, 9),
   .text c!" = max( min(i_",
   .code c!"i" (64, 28),
   .text c!",n_",
   .code c!"i" (64, 36),
   .text c!"-2), 0 )\n    λ_",
   .code c!"i" (65, 9),
   .text c!" = u_",
   .code c!"i" (65, 19),
   .text c!"-i_",
   .code c!"i" (65, 27),
   .text c!"\n    ",
   .code c!"elif grid_types[i]=='nonuniform'" (66, 7),
   .text c!"\n    # dimension ",
   .code c!"i" (67, 19),
   .text c!": nonuniform grid\n    i_",
   .code c!"i" (68, 9),
   .text c!" = int(np.searchsorted(gc_",
   .code c!"i" (68, 40),
   .text c!", x_",
   .code c!"i" (68, 49),
   .text c!"))-1\n    i_",
   .code c!"i" (69, 9),
   .text c!" = min(max(i_",
   .code c!"i" (69, 27),
   .text c!", 0), N_",
   .code c!"i" (69, 40),
   .text c!"-2)\n    δ_",
   .code c!"i" (70, 9),
   .text c!" = (gc_",
   .code c!"i" (70, 21),
   .text c!"[i_",
   .code c!"i" (70, 29),
   .text c!"+1]-gc_",
   .code c!"i" (70, 41),
   .text c!"[i_",
   .code c!"i" (70, 49),
   .text c!"])\n    λ_",
   .code c!"i" (71, 9),
   .text c!" = (x_",
   .code c!"i" (71, 20),
   .text c!"-gc_",
   .code c!"i" (71, 29),
   .text c!"[i_",
   .code c!"i" (71, 37),
   .text c!"])/δ_",
   .code c!"i" (71, 47),
   .text c!"\n    ",
   .code c!"endif" (72, 7),
   .text c!"\n    \n    ",
   .code c!"endfor" (74, 7),
   .text c!"\n\n    # Basis functions\n    ",
   .code c!"for i in range(d)" (77, 7),
   .text c!"\n        ",
   .code c!"for l in bases_orders[i]" (78, 11),
   .text c!"\n",
   .code c!"indent(blending_formula(k,l,i=i),levels=1)" (79, 3),
   .text c!"\n        ",
   .code c!"endfor" (80, 11),
   .text c!"\n    ",
   .code c!"endfor" (81, 7),
   .text c!"\n\n\n    ",
   .code c!"if vector_valued" (84, 7),
   .text c!"\n\n    ",
   .code c!"if orders is None" (86, 7),
   .text c!"\n\n    # compute tensor reductions\n    for i_x in range(n_vals):\n        out[i_x] = ",
   .code c!" get_values(d, multispline=True, k=k+1, i_x='i_x') " (90, 22),
   .text c!"\n\n    ",
   .code c!"else" (92, 7),
   .text c!"\n\n    # compute tensor reductions\n    for i_x in range(n_vals):\n        ",
   .code c!"for oo in orders" (96, 11),
   .text c!"\n        val_",
   .code c!"str(oo).strip(\"(\").strip(\")\").replace(\",\", \"\").replace(\" \", \"\")" (97, 15),
   .text c!" = ",
   .code c!"get_values(d, multispline=True, i_x='i_x', k=k+1, diffs=oo)" (97, 85),
   .text c!"\n        ",
   .code c!"endfor" (98, 11),
   .text c!"\n\n        ",
   .code c!"for j,oo in enumerate(orders)" (100, 11),
   .text c!"\n        out[i_x, ",
   .code c!"j" (101, 20),
   .text c!"] = val_",
   .code c!"str(oo).strip(\"(\").strip(\")\").replace(\",\", \"\").replace(\" \", \"\")" (101, 33),
   .text c!"\n        ",
   .code c!"endfor" (102, 11),
   .text c!"\n\n    ",
   .code c!"endif" (104, 7),
   .text c!"\n\n    ",
   .code c!"if allocate" (106, 7),
   .text c!"\n    return out\n    ",
   .code c!"endif" (108, 7),
   .text c!"\n\n    ",
   .code c!"else" (110, 7),
   .text c!"\n\n    ",
   .code c!"if isinstance(orders, (tuple, list))" (112, 7),
   .text c!"\n\n        ",
   .code c!"for oo in orders" (114, 11),
   .text c!"\n    val_",
   .code c!"str(oo).strip(\"(\").strip(\")\").replace(\",\", \"\").replace(\" \", \"\")" (115, 11),
   .text c!" = ",
   .code c!"get_values(d, multispline=False, k=k+1, diffs=oo)" (115, 81),
   .text c!"\n        ",
   .code c!"endfor" (116, 11),
   .text c!"\n\n        ",
   .code c!"if allocate" (118, 11),
   .text c!"\n\n    val = (\\\n            ",
   .code c!"for oo in orders" (121, 15),
   .text c!"\n    val_",
   .code c!"str(oo).strip(\"(\").strip(\")\").replace(\",\", \"\").replace(\" \", \"\")" (122, 11),
   .text c!",\\\n            ",
   .code c!"endfor" (123, 15),
   .text c!"\n    )\n    return val\n\n        ",
   .code c!"else" (127, 11),
   .text c!"\n\n            ",
   .code c!"for i,oo in enumerate(orders)" (129, 15),
   .text c!"\n    out[",
   .code c!"i" (130, 11),
   .text c!"] = val_",
   .code c!"str(oo).strip(\"(\").strip(\")\").replace(\",\", \"\").replace(\" \", \"\")" (130, 24),
   .text c!"\n            ",
   .code c!"endfor" (131, 15),
   .text c!"\n\n        ",
   .code c!"endif" (133, 11),
   .text c!"\n\n    ",
   .code c!"else" (135, 7),
   .text c!"\n\n    val = ",
   .code c!"get_values(d, multispline=False, k=k+1)" (137, 13),
   .text c!"\n    return val\n\n    ",
   .code c!"endif" (140, 7),
   .text c!"\n\n    ",
   .code c!"endif" (142, 7),
   .text c!"\n"]

/-- The chunks of `evalTemplate`. -/
def pointLex : List Chunk :=
  [.text c!"\ndef eval_spline(grid, C, points, out=None, k=1, diff=\"None\", extrap_mode='linear'):\n    \"This is my docstring\"\n\n",
   .code c!"if vector_valued" (5, 7),
   .text c!"    n_vals = C.shape[",
   .code c!"d" (6, 24),
   .text c!"]\n",
   .code c!"if allocate" (7, 11),
   .text [],
   .code c!"if orders is None" (8, 15),
   .text c!"    out = zeros(n_vals)\n",
   .code c!"else" (10, 15),
   .text c!"    out = zeros((n_vals, ",
   .code c!"len(orders)" (11, 28),
   .text c!"))\n",
   .code c!"endif" (12, 15),
   .text [],
   .code c!"endif" (13, 11),
   .text [],
   .code c!"else" (14, 7),
   .text [],
   .code c!"if allocate" (15, 11),
   .text [],
   .code c!"if orders is not None" (16, 15),
   .text c!"    out = zeros(",
   .code c!"len(orders)" (17, 19),
   .text c!")\n",
   .code c!"endif" (18, 15),
   .text [],
   .code c!"endif" (19, 11),
   .text [],
   .code c!"endif" (20, 7),
   .text c!"\n    #recover grid parameters\n",
   .code c!"for i in range(d)" (23, 7),
   .text [],
   .code c!"if (not grid_types) or (grid_types[i]=='uniform')" (24, 7),
   .text c!"    # dim ",
   .code c!"i" (25, 13),
   .text c!": uniform\n    a_",
   .code c!"i" (26, 9),
   .text c!" = grid[",
   .code c!"i" (26, 22),
   .text c!"][0]\n    b_",
   .code c!"i" (27, 9),
   .text c!" = grid[",
   .code c!"i" (27, 22),
   .text c!"][1]\n    n_",
   .code c!"i" (28, 9),
   .text c!" = grid[",
   .code c!"i" (28, 22),
   .text c!"][2]\n    δ_",
   .code c!"i" (29, 9),
   .text c!" = (n_",
   .code c!"i" (29, 20),
   .text c!"-1.0)/(b_",
   .code c!"i" (29, 34),
   .text c!"-a_",
   .code c!"i" (29, 42),
   .text c!")\n",
   .code c!"elif grid_types[i]=='nonuniform'" (30, 7),
   .text c!"    # dim ",
   .code c!"i" (31, 13),
   .text c!": nonuniform\n    gc_",
   .code c!"i" (32, 10),
   .text c!" = grid[",
   .code c!"i" (32, 23),
   .text c!"]\n    N_",
   .code c!"i" (33, 9),
   .text c!" = gc_",
   .code c!"i" (33, 20),
   .text c!".shape[0]\n",
   .code c!"endif" (34, 7),
   .text [],
   .code c!"endfor" (35, 7),
   .text c!"\n    # extract coordinates\n",
   .code c!"for i in range(d)" (38, 7),
   .text c!"    x_",
   .code c!"i" (39, 9),
   .text c!" = points[",
   .code c!"i" (39, 24),
   .text c!"]\n",
   .code c!"if extrap_mode == 'nearest'" (40, 7),
   .text c!"    x_",
   .code c!"i" (41, 9),
   .text c!" = max(a_",
   .code c!"i" (41, 23),
   .text c!", min(x_",
   .code c!"i" (41, 36),
   .text c!", b_",
   .code c!"i" (41, 45),
   .text c!"))\n",
   .code c!"endif" (42, 7),
   .text [],
   .code c!"if extrap_mode == 'constant'" (43, 7),
   .text c!"    if (x_",
   .code c!"i" (44, 13),
   .text c!"<a_",
   .code c!"i" (44, 21),
   .text c!") or (x_",
   .code c!"i" (44, 34),
   .text c!">b_",
   .code c!"i" (44, 42),
   .text c!"):\n",
   .code c!"if vector_valued" (45, 11),
   .text c!"        out[:] = 0.0\n",
   .code c!"if allocate" (47, 11),
   .text c!"        return out\n",
   .code c!"endif" (49, 11),
   .text [],
   .code c!"else" (50, 11),
   .text c!"        val = 0.0\n        return val\n",
   .code c!"endif" (53, 11),
   .text [],
   .code c!"endif" (54, 7),
   .text [],
   .code c!"endfor" (55, 7),
   .text c!"\n    # compute indices and barycentric coordinates\n",
   .code c!"for i in range(d)" (58, 7),
   .text [],
   .code c!"if (not grid_types) or (grid_types[i]=='uniform')" (60, 7),
   .text c!"    # dimension ",
   .code c!"i" (61, 19),
   .text c!": uniform grid\n    u_",
   .code c!"i" (62, 9),
   .text c!" = (x_",
   .code c!"i" (62, 20),
   .text c!" - a_",
   .code c!"i" (62, 30),
   .text c!")*δ_",
   .code c!"i" (62, 39),
   .text c!"\n    i_",
   .code c!"i" (63, 9),
   .text c!" = int( floor( u_",
   .code c!"i" (63, 31),
   .text c!" ) )\n    i_",
   .code c!"i" (64, 9),
   .text c!" = max( min(i_",
   .code c!"i" (64, 28),
   .text c!",n_",
   .code c!"i" (64, 36),
   .text c!"-2), 0 )\n    λ_",
   .code c!"i" (65, 9),
   .text c!" = u_",
   .code c!"i" (65, 19),
   .text c!"-i_",
   .code c!"i" (65, 27),
   .text c!"\n",
   .code c!"elif grid_types[i]=='nonuniform'" (66, 7),
   .text c!"    # dimension ",
   .code c!"i" (67, 19),
   .text c!": nonuniform grid\n    i_",
   .code c!"i" (68, 9),
   .text c!" = int(np.searchsorted(gc_",
   .code c!"i" (68, 40),
   .text c!", x_",
   .code c!"i" (68, 49),
   .text c!"))-1\n    i_",
   .code c!"i" (69, 9),
   .text c!" = min(max(i_",
   .code c!"i" (69, 27),
   .text c!", 0), N_",
   .code c!"i" (69, 40),
   .text c!"-2)\n    δ_",
   .code c!"i" (70, 9),
   .text c!" = (gc_",
   .code c!"i" (70, 21),
   .text c!"[i_",
   .code c!"i" (70, 29),
   .text c!"+1]-gc_",
   .code c!"i" (70, 41),
   .text c!"[i_",
   .code c!"i" (70, 49),
   .text c!"])\n    λ_",
   .code c!"i" (71, 9),
   .text c!" = (x_",
   .code c!"i" (71, 20),
   .text c!"-gc_",
   .code c!"i" (71, 29),
   .text c!"[i_",
   .code c!"i" (71, 37),
   .text c!"])/δ_",
   .code c!"i" (71, 47),
   .text c!"\n",
   .code c!"endif" (72, 7),
   .text [],
   .code c!"endfor" (74, 7),
   .text c!"\n    # Basis functions\n",
   .code c!"for i in range(d)" (77, 7),
   .text [],
   .code c!"for l in bases_orders[i]" (78, 11),
   .text [],
   .code c!"indent(blending_formula(k,l,i=i),levels=1)" (79, 3),
   .text c!"\n",
   .code c!"endfor" (80, 11),
   .text [],
   .code c!"endfor" (81, 7),
   .text [],
   .code c!"if vector_valued" (84, 7),
   .text [],
   .code c!"if orders is None" (86, 7),
   .text c!"\n    # compute tensor reductions\n    for i_x in range(n_vals):\n        out[i_x] = ",
   .code c!" get_values(d, multispline=True, k=k+1, i_x='i_x') " (90, 22),
   .text c!"\n\n",
   .code c!"else" (92, 7),
   .text c!"\n    # compute tensor reductions\n    for i_x in range(n_vals):\n",
   .code c!"for oo in orders" (96, 11),
   .text c!"        val_",
   .code c!"str(oo).strip(\"(\").strip(\")\").replace(\",\", \"\").replace(\" \", \"\")" (97, 15),
   .text c!" = ",
   .code c!"get_values(d, multispline=True, i_x='i_x', k=k+1, diffs=oo)" (97, 85),
   .text c!"\n",
   .code c!"endfor" (98, 11),
   .text [],
   .code c!"for j,oo in enumerate(orders)" (100, 11),
   .text c!"        out[i_x, ",
   .code c!"j" (101, 20),
   .text c!"] = val_",
   .code c!"str(oo).strip(\"(\").strip(\")\").replace(\",\", \"\").replace(\" \", \"\")" (101, 33),
   .text c!"\n",
   .code c!"endfor" (102, 11),
   .text [],
   .code c!"endif" (104, 7),
   .text [],
   .code c!"if allocate" (106, 7),
   .text c!"    return out\n",
   .code c!"endif" (108, 7),
   .text [],
   .code c!"else" (110, 7),
   .text [],
   .code c!"if isinstance(orders, (tuple, list))" (112, 7),
   .text [],
   .code c!"for oo in orders" (114, 11),
   .text c!"    val_",
   .code c!"str(oo).strip(\"(\").strip(\")\").replace(\",\", \"\").replace(\" \", \"\")" (115, 11),
   .text c!" = ",
   .code c!"get_values(d, multispline=False, k=k+1, diffs=oo)" (115, 81),
   .text c!"\n",
   .code c!"endfor" (116, 11),
   .text [],
   .code c!"if allocate" (118, 11),
   .text c!"\n    val = (\\\n",
   .code c!"for oo in orders" (121, 15),
   .text c!"    val_",
   .code c!"str(oo).strip(\"(\").strip(\")\").replace(\",\", \"\").replace(\" \", \"\")" (122, 11),
   .text c!",\\\n",
   .code c!"endfor" (123, 15),
   .text c!"    )\n    return val\n\n",
   .code c!"else" (127, 11),
   .text [],
   .code c!"for i,oo in enumerate(orders)" (129, 15),
   .text c!"    out[",
   .code c!"i" (130, 11),
   .text c!"] = val_",
   .code c!"str(oo).strip(\"(\").strip(\")\").replace(\",\", \"\").replace(\" \", \"\")" (130, 24),
   .text c!"\n",
   .code c!"endfor" (131, 15),
   .text [],
   .code c!"endif" (133, 11),
   .text [],
   .code c!"else" (135, 7),
   .text c!"\n    val = ",
   .code c!"get_values(d, multispline=False, k=k+1)" (137, 13),
   .text c!"\n    return val\n\n",
   .code c!"endif" (140, 7),
   .text [],
   .code c!"endif" (142, 7),
   .text []]

/-- Part 0 of the parsed `evalTemplate`. -/
def point0 : Node :=
  .text c!"\ndef eval_spline(grid, C, points, out=None, k=1, diff=\"None\", extrap_mode='linear'):\n    \"This is my docstring\"\n\n"

/-- Part 1 of the parsed `evalTemplate`. -/
def point1 : Node :=
  .cond (5, 7) <|
    .cons (some c!"vector_valued") (5, 7) (
      .cons (.text c!"    n_vals = C.shape[") <|
      .cons (.expr (6, 24) c!"d") <|
      .cons (.text c!"]\n") <|
      .cons (.cond (7, 11) <|
        .cons (some c!"allocate") (7, 11) (
          .cons (.text []) <|
          .cons (.cond (8, 15) <|
            .cons (some c!"orders is None") (8, 15) (
              .cons (.text c!"    out = zeros(n_vals)\n") <|
              .nil) <|
            .cons none (10, 15) (
              .cons (.text c!"    out = zeros((n_vals, ") <|
              .cons (.expr (11, 28) c!"len(orders)") <|
              .cons (.text c!"))\n") <|
              .nil) <|
            .nil) <|
          .cons (.text []) <|
          .nil) <|
        .nil) <|
      .cons (.text []) <|
      .nil) <|
    .cons none (14, 7) (
      .cons (.text []) <|
      .cons (.cond (15, 11) <|
        .cons (some c!"allocate") (15, 11) (
          .cons (.text []) <|
          .cons (.cond (16, 15) <|
            .cons (some c!"orders is not None") (16, 15) (
              .cons (.text c!"    out = zeros(") <|
              .cons (.expr (17, 19) c!"len(orders)") <|
              .cons (.text c!")\n") <|
              .nil) <|
            .nil) <|
          .cons (.text []) <|
          .nil) <|
        .nil) <|
      .cons (.text []) <|
      .nil) <|
    .nil

/-- Part 2 of the parsed `evalTemplate`. -/
def point2 : Node :=
  .text c!"\n    #recover grid parameters\n"

/-- Part 3 of the parsed `evalTemplate`. -/
def point3 : Node :=
  .forIn (23, 7) [c!"i"] c!"range(d)" <|
    .cons (.text []) <|
    .cons (.cond (24, 7) <|
      .cons (some c!"(not grid_types) or (grid_types[i]=='uniform')") (24, 7) (
        .cons (.text c!"    # dim ") <|
        .cons (.expr (25, 13) c!"i") <|
        .cons (.text c!": uniform\n    a_") <|
        .cons (.expr (26, 9) c!"i") <|
        .cons (.text c!" = grid[") <|
        .cons (.expr (26, 22) c!"i") <|
        .cons (.text c!"][0]\n    b_") <|
        .cons (.expr (27, 9) c!"i") <|
        .cons (.text c!" = grid[") <|
        .cons (.expr (27, 22) c!"i") <|
        .cons (.text c!"][1]\n    n_") <|
        .cons (.expr (28, 9) c!"i") <|
        .cons (.text c!" = grid[") <|
        .cons (.expr (28, 22) c!"i") <|
        .cons (.text c!"][2]\n    δ_") <|
        .cons (.expr (29, 9) c!"i") <|
        .cons (.text c!" = (n_") <|
        .cons (.expr (29, 20) c!"i") <|
        .cons (.text c!"-1.0)/(b_") <|
        .cons (.expr (29, 34) c!"i") <|
        .cons (.text c!"-a_") <|
        .cons (.expr (29, 42) c!"i") <|
        .cons (.text c!")\n") <|
        .nil) <|
      .cons (some c!"grid_types[i]=='nonuniform'") (30, 7) (
        .cons (.text c!"    # dim ") <|
        .cons (.expr (31, 13) c!"i") <|
        .cons (.text c!": nonuniform\n    gc_") <|
        .cons (.expr (32, 10) c!"i") <|
        .cons (.text c!" = grid[") <|
        .cons (.expr (32, 23) c!"i") <|
        .cons (.text c!"]\n    N_") <|
        .cons (.expr (33, 9) c!"i") <|
        .cons (.text c!" = gc_") <|
        .cons (.expr (33, 20) c!"i") <|
        .cons (.text c!".shape[0]\n") <|
        .nil) <|
      .nil) <|
    .cons (.text []) <|
    .nil

/-- Part 4 of the parsed `evalTemplate`. -/
def point4 : Node :=
  .text c!"\n    # extract coordinates\n"

/-- Part 5 of the parsed `evalTemplate`. -/
def point5 : Node :=
  .forIn (38, 7) [c!"i"] c!"range(d)" <|
    .cons (.text c!"    x_") <|
    .cons (.expr (39, 9) c!"i") <|
    .cons (.text c!" = points[") <|
    .cons (.expr (39, 24) c!"i") <|
    .cons (.text c!"]\n") <|
    .cons (.cond (40, 7) <|
      .cons (some c!"extrap_mode == 'nearest'") (40, 7) (
        .cons (.text c!"    x_") <|
        .cons (.expr (41, 9) c!"i") <|
        .cons (.text c!" = max(a_") <|
        .cons (.expr (41, 23) c!"i") <|
        .cons (.text c!", min(x_") <|
        .cons (.expr (41, 36) c!"i") <|
        .cons (.text c!", b_") <|
        .cons (.expr (41, 45) c!"i") <|
        .cons (.text c!"))\n") <|
        .nil) <|
      .nil) <|
    .cons (.text []) <|
    .cons (.cond (43, 7) <|
      .cons (some c!"extrap_mode == 'constant'") (43, 7) (
        .cons (.text c!"    if (x_") <|
        .cons (.expr (44, 13) c!"i") <|
        .cons (.text c!"<a_") <|
        .cons (.expr (44, 21) c!"i") <|
        .cons (.text c!") or (x_") <|
        .cons (.expr (44, 34) c!"i") <|
        .cons (.text c!">b_") <|
        .cons (.expr (44, 42) c!"i") <|
        .cons (.text c!"):\n") <|
        .cons (.cond (45, 11) <|
          .cons (some c!"vector_valued") (45, 11) (
            .cons (.text c!"        out[:] = 0.0\n") <|
            .cons (.cond (47, 11) <|
              .cons (some c!"allocate") (47, 11) (
                .cons (.text c!"        return out\n") <|
                .nil) <|
              .nil) <|
            .cons (.text []) <|
            .nil) <|
          .cons none (50, 11) (
            .cons (.text c!"        val = 0.0\n        return val\n") <|
            .nil) <|
          .nil) <|
        .cons (.text []) <|
        .nil) <|
      .nil) <|
    .cons (.text []) <|
    .nil

/-- Part 6 of the parsed `evalTemplate`. -/
def point6 : Node :=
  .text c!"\n    # compute indices and barycentric coordinates\n"

/-- Part 7 of the parsed `evalTemplate`. -/
def point7 : Node :=
  .forIn (58, 7) [c!"i"] c!"range(d)" <|
    .cons (.text []) <|
    .cons (.cond (60, 7) <|
      .cons (some c!"(not grid_types) or (grid_types[i]=='uniform')") (60, 7) (
        .cons (.text c!"    # dimension ") <|
        .cons (.expr (61, 19) c!"i") <|
        .cons (.text c!": uniform grid\n    u_") <|
        .cons (.expr (62, 9) c!"i") <|
        .cons (.text c!" = (x_") <|
        .cons (.expr (62, 20) c!"i") <|
        .cons (.text c!" - a_") <|
        .cons (.expr (62, 30) c!"i") <|
        .cons (.text c!")*δ_") <|
        .cons (.expr (62, 39) c!"i") <|
        .cons (.text c!"\n    i_") <|
        .cons (.expr (63, 9) c!"i") <|
        .cons (.text c!" = int( floor( u_") <|
        .cons (.expr (63, 31) c!"i") <|
        .cons (.text c!" ) )\n    i_") <|
        .cons (.expr (64, 9) c!"i") <|
        .cons (.text c!" = max( min(i_") <|
        .cons (.expr (64, 28) c!"i") <|
        .cons (.text c!",n_") <|
        .cons (.expr (64, 36) c!"i") <|
        .cons (.text c!"-2), 0 )\n    λ_") <|
        .cons (.expr (65, 9) c!"i") <|
        .cons (.text c!" = u_") <|
        .cons (.expr (65, 19) c!"i") <|
        .cons (.text c!"-i_") <|
        .cons (.expr (65, 27) c!"i") <|
        .cons (.text c!"\n") <|
        .nil) <|
      .cons (some c!"grid_types[i]=='nonuniform'") (66, 7) (
        .cons (.text c!"    # dimension ") <|
        .cons (.expr (67, 19) c!"i") <|
        .cons (.text c!": nonuniform grid\n    i_") <|
        .cons (.expr (68, 9) c!"i") <|
        .cons (.text c!" = int(np.searchsorted(gc_") <|
        .cons (.expr (68, 40) c!"i") <|
        .cons (.text c!", x_") <|
        .cons (.expr (68, 49) c!"i") <|
        .cons (.text c!"))-1\n    i_") <|
        .cons (.expr (69, 9) c!"i") <|
        .cons (.text c!" = min(max(i_") <|
        .cons (.expr (69, 27) c!"i") <|
        .cons (.text c!", 0), N_") <|
        .cons (.expr (69, 40) c!"i") <|
        .cons (.text c!"-2)\n    δ_") <|
        .cons (.expr (70, 9) c!"i") <|
        .cons (.text c!" = (gc_") <|
        .cons (.expr (70, 21) c!"i") <|
        .cons (.text c!"[i_") <|
        .cons (.expr (70, 29) c!"i") <|
        .cons (.text c!"+1]-gc_") <|
        .cons (.expr (70, 41) c!"i") <|
        .cons (.text c!"[i_") <|
        .cons (.expr (70, 49) c!"i") <|
        .cons (.text c!"])\n    λ_") <|
        .cons (.expr (71, 9) c!"i") <|
        .cons (.text c!" = (x_") <|
        .cons (.expr (71, 20) c!"i") <|
        .cons (.text c!"-gc_") <|
        .cons (.expr (71, 29) c!"i") <|
        .cons (.text c!"[i_") <|
        .cons (.expr (71, 37) c!"i") <|
        .cons (.text c!"])/δ_") <|
        .cons (.expr (71, 47) c!"i") <|
        .cons (.text c!"\n") <|
        .nil) <|
      .nil) <|
    .cons (.text []) <|
    .nil

/-- Part 8 of the parsed `evalTemplate`. -/
def point8 : Node :=
  .text c!"\n    # Basis functions\n"

/-- Part 9 of the parsed `evalTemplate`. -/
def point9 : Node :=
  .forIn (77, 7) [c!"i"] c!"range(d)" <|
    .cons (.text []) <|
    .cons (.forIn (78, 11) [c!"l"] c!"bases_orders[i]" <|
      .cons (.text []) <|
      .cons (.expr (79, 3) c!"indent(blending_formula(k,l,i=i),levels=1)") <|
      .cons (.text c!"\n") <|
      .nil) <|
    .cons (.text []) <|
    .nil

/-- Part 10 of the parsed `evalTemplate`. -/
def point10 : Node :=
  .text []

/-- Part 11 of the parsed `evalTemplate`. -/
def point11 : Node :=
  .cond (84, 7) <|
    .cons (some c!"vector_valued") (84, 7) (
      .cons (.text []) <|
      .cons (.cond (86, 7) <|
        .cons (some c!"orders is None") (86, 7) (
          .cons (.text c!"\n    # compute tensor reductions\n    for i_x in range(n_vals):\n        out[i_x] = ") <|
          .cons (.expr (90, 22) c!" get_values(d, multispline=True, k=k+1, i_x='i_x') ") <|
          .cons (.text c!"\n\n") <|
          .nil) <|
        .cons none (92, 7) (
          .cons (.text c!"\n    # compute tensor reductions\n    for i_x in range(n_vals):\n") <|
          .cons (.forIn (96, 11) [c!"oo"] c!"orders" <|
            .cons (.text c!"        val_") <|
            .cons (.expr (97, 15) c!"str(oo).strip(\"(\").strip(\")\").replace(\",\", \"\").replace(\" \", \"\")") <|
            .cons (.text c!" = ") <|
            .cons (.expr (97, 85) c!"get_values(d, multispline=True, i_x='i_x', k=k+1, diffs=oo)") <|
            .cons (.text c!"\n") <|
            .nil) <|
          .cons (.text []) <|
          .cons (.forIn (100, 11) [c!"j", c!"oo"] c!"enumerate(orders)" <|
            .cons (.text c!"        out[i_x, ") <|
            .cons (.expr (101, 20) c!"j") <|
            .cons (.text c!"] = val_") <|
            .cons (.expr (101, 33) c!"str(oo).strip(\"(\").strip(\")\").replace(\",\", \"\").replace(\" \", \"\")") <|
            .cons (.text c!"\n") <|
            .nil) <|
          .cons (.text []) <|
          .nil) <|
        .nil) <|
      .cons (.text []) <|
      .cons (.cond (106, 7) <|
        .cons (some c!"allocate") (106, 7) (
          .cons (.text c!"    return out\n") <|
          .nil) <|
        .nil) <|
      .cons (.text []) <|
      .nil) <|
    .cons none (110, 7) (
      .cons (.text []) <|
      .cons (.cond (112, 7) <|
        .cons (some c!"isinstance(orders, (tuple, list))") (112, 7) (
          .cons (.text []) <|
          .cons (.forIn (114, 11) [c!"oo"] c!"orders" <|
            .cons (.text c!"    val_") <|
            .cons (.expr (115, 11) c!"str(oo).strip(\"(\").strip(\")\").replace(\",\", \"\").replace(\" \", \"\")") <|
            .cons (.text c!" = ") <|
            .cons (.expr (115, 81) c!"get_values(d, multispline=False, k=k+1, diffs=oo)") <|
            .cons (.text c!"\n") <|
            .nil) <|
          .cons (.text []) <|
          .cons (.cond (118, 11) <|
            .cons (some c!"allocate") (118, 11) (
              .cons (.text c!"\n    val = (\\\n") <|
              .cons (.forIn (121, 15) [c!"oo"] c!"orders" <|
                .cons (.text c!"    val_") <|
                .cons (.expr (122, 11) c!"str(oo).strip(\"(\").strip(\")\").replace(\",\", \"\").replace(\" \", \"\")") <|
                .cons (.text c!",\\\n") <|
                .nil) <|
              .cons (.text c!"    )\n    return val\n\n") <|
              .nil) <|
            .cons none (127, 11) (
              .cons (.text []) <|
              .cons (.forIn (129, 15) [c!"i", c!"oo"] c!"enumerate(orders)" <|
                .cons (.text c!"    out[") <|
                .cons (.expr (130, 11) c!"i") <|
                .cons (.text c!"] = val_") <|
                .cons (.expr (130, 24) c!"str(oo).strip(\"(\").strip(\")\").replace(\",\", \"\").replace(\" \", \"\")") <|
                .cons (.text c!"\n") <|
                .nil) <|
              .cons (.text []) <|
              .nil) <|
            .nil) <|
          .cons (.text []) <|
          .nil) <|
        .cons none (135, 7) (
          .cons (.text c!"\n    val = ") <|
          .cons (.expr (137, 13) c!"get_values(d, multispline=False, k=k+1)") <|
          .cons (.text c!"\n    return val\n\n") <|
          .nil) <|
        .nil) <|
      .cons (.text []) <|
      .nil) <|
    .nil

/-- Part 12 of the parsed `evalTemplate`. -/
def point12 : Node :=
  .text []

/-- The parsed `evalTemplate`. -/
def pointTree : Nodes :=
  .cons point0 <|
  .cons point1 <|
  .cons point2 <|
  .cons point3 <|
  .cons point4 <|
  .cons point5 <|
  .cons point6 <|
  .cons point7 <|
  .cons point8 <|
  .cons point9 <|
  .cons point10 <|
  .cons point11 <|
  .cons point12 <|
  .nil

theorem point_raw : lexRaw (evalTemplate) = .ok pointRaw := by decide +kernel

theorem point_trim : trimLex pointRaw = pointLex := by decide +kernel

theorem point_all : parseAll (depth pointLex) pointLex = .ok pointTree := by decide +kernel

theorem point_parse : parse (evalTemplate) = .ok pointTree := parse_of point_raw point_trim point_all

/-- The chunks of `evalTemplateVectorized` before trimming. -/
def rowsRaw : List Chunk :=
  [.text c!"\ndef eval_spline(grid, C, points, out=None, k=1, diff=\"None\", extrap_mode='linear'):\n    \"This is my docstring\"\n\n    N = points.shape[0]\n\n    ",
   .code c!"if vector_valued" (7, 7),
   .text c!"\n    n_vals = C.shape[",
   .code c!"d" (8, 24),
   .text c!"]\n    ",
   .code c!"endif" (9, 7),
   .text c!"\n\n    ",
   .code c!"if allocate" (11, 7),
   .text c!"\n    out = allocate_output(grid, C, points, ",
   .code c!"orders if orders is not None else \"None\"" (12, 46),
   .text c!")\n    ",
   .code c!"endif" (13, 7),
   .text c!"\n\n    #recover grid parameters\n    ",
   .code c!"for i in range(d)" (16, 7),
   .text c!"\n    ",
   .code c!"if (not grid_types) or (grid_types[i]=='uniform')" (17, 7),
   .text c!"\n    # dim ",
   .code c!"i" (18, 13),
   .text c!": uniform\n    a_",
   .code c!"i" (19, 9),
   .text c!" = grid[",
   .code c!"i" (19, 22),
   .text c!"][0]\n    b_",
   .code c!"i" (20, 9),
   .text c!" = grid[",
   .code c!"i" (20, 22),
   .text c!"][1]\n    n_",
   .code c!"i" (21, 9),
   .text c!" = grid[",
   .code c!"i" (21, 22),
   .text c!"][2]\n    δ_",
   .code c!"i" (22, 9),
   .text c!" = (n_",
   .code c!"i" (22, 20),
   .text c!"-1.0)/(b_",
   .code c!"i" (22, 34),
   .text c!"-a_",
   .code c!"i" (22, 42),
   .text c!")\n    ",
   .code c!"elif grid_types[i]=='nonuniform'" (23, 7),
   .text c!"\n    # dim ",
   .code c!"i" (24, 13),
   .text c!": nonuniform\n    gc_",
   .code c!"i" (25, 10),
   .text c!" = grid[",
   .code c!"i" (25, 23),
   .text c!"]\n    N_",
   .code c!"i" (26, 9),
   .text c!" = gc_",
   .code c!"i" (26, 20),
   .text c!".shape[0]\n    a_",
   .code c!"i" (27, 9),
   .text c!" = gc_",
   .code c!"i" (27, 20),
   .text c!"[0]\n    b_",
   .code c!"i" (28, 9),
   .text c!" = gc_",
   .code c!"i" (28, 20),
   .text c!"[N_",
   .code c!"i" (28, 28),
   .text c!"-1]\n    ",
   .code c!"endif" (29, 7),
   .text c!"\n    ",
   .code c!"endfor" (30, 7),
   .text c!"\n\n    for nn in range(N):\n\n        # extract coordinates\n        ",
   .code c!"for i in range(d)" (35, 11),
   .text c!"\n        x_",
   .code c!"i" (36, 13),
   .text c!" = points[nn,",
   .code c!"i" (36, 31),
   .text c!"]\n        ",
   .code c!"if extrap_mode == 'nearest'" (37, 11),
   .text c!"\n        x_",
   .code c!"i" (38, 13),
   .text c!" = max(a_",
   .code c!"i" (38, 27),
   .text c!", min(x_",
   .code c!"i" (38, 40),
   .text c!", b_",
   .code c!"i" (38, 49),
   .text c!"))\n        ",
   .code c!"endif" (39, 11),
   .text c!"\n        ",
   .code c!"if extrap_mode == 'constant'" (40, 11),
   .text c!"\n        if (x_",
   .code c!"i" (41, 17),
   .text c!"<a_",
   .code c!"i" (41, 25),
   .text c!") or (x_",
   .code c!"i" (41, 38),
   .text c!">b_",
   .code c!"i" (41, 46),
   .text c!"):\n            ",
   .code c!"if vector_valued" (42, 15),
   .text c!"\n            out[nn,:] = 0.0\n            ",
   .code c!"else" (44, 15),
   .text c!"\n            out[nn] = 0.0\n            ",
   .code c!"endif" (46, 15),
   .text c!"\n            continue\n        ",
   .code c!"endif" (48, 11),
   .text c!"\n        ",
   .code c!"endfor" (49, 11),
   .text c!"\n\n        # compute indices and barycentric coordinates\n        ",
   .code c!"for i in range(d)" (52, 11),
   .text c!"\n\n        ",
   .code c!"if (not grid_types) or (grid_types[i]=='uniform')" (54, 11),
   .text c!"\n        # dimension ",
   .code c!"i" (55, 23),
   .text c!": uniform grid\n        u_",
   .code c!"i" (56, 13),
   .text c!" = (x_",
   .code c!"i" (56, 24),
   .text c!" - a_",
   .code c!"i" (56, 34),
   .text c!")*δ_",
   .code c!"i" (56, 43),
   .text c!"\n        i_",
   .code c!"i" (57, 13),
   .text c!" = int( floor( u_",
   .code c!"i" (57, 35),
   .text c!" ) )\n        i_",
   .code c!"i" (58, 13),
   .text c!" = max( min(i_",
   .code c!"i" (58, 32),
   .text c!",n_",
   .code c!"i" (58, 40),
   .text c!"-2), 0 )\n        λ_",
   .code c!"i" (59, 13),
   .text c!" = u_",
   .code c!"i" (59, 23),
   .text c!"-i_",
   .code c!"i" (59, 31),
   .text c!"\n        ",
   .code c!"elif grid_types[i]=='nonuniform'" (60, 11),
   .text c!"\n        # dimension ",
   .code c!"i" (61, 23),
   .text c!": nonuniform grid\n        i_",
   .code c!"i" (62, 13),
   .text c!" = int(np.searchsorted(gc_",
   .code c!"i" (62, 44),
   .text c!", x_",
   .code c!"i" (62, 53),
   .text c!"))-1\n        i_",
   .code c!"i" (63, 13),
   .text c!" = min(max(i_",
   .code c!"i" (63, 31),
   .text c!", 0), N_",
   .code c!"i" (63, 44),
   .text c!"-2)\n        δ_",
   .code c!"i" (64, 13),
   .text c!" = (gc_",
   .code c!"i" (64, 25),
   .text c!"[i_",
   .code c!"i" (64, 33),
   .text c!"+1]-gc_",
   .code c!"i" (64, 45),
   .text c!"[i_",
   .code c!"i" (64, 53),
   .text c!"])\n        λ_",
   .code c!"i" (65, 13),
   .text c!" = (x_",
   .code c!"i" (65, 24),
   .text c!"-gc_",
   .code c!"i" (65, 33),
   .text c!"[i_",
   .code c!"i" (65, 41),
   .text c!"])/δ_",
   .code c!"i" (65, 51),
   .text c!"\n        ",
   .code c!"endif" (66, 11),
   .text c!"\n        ",
   .code c!"endfor" (67, 11),
   .text c!"\n\n        # Basis functions\n        ",
   .code c!"for i in range(d)" (70, 11),
   .text c!"\n        ",
   .code c!"for l in bases_orders[i]" (71, 11),
   .text c!"\n",
   .code c!"indent(blending_formula(k,l,i=i),levels=2)" (72, 3),
   .text c!"\n        ",
   .code c!"endfor" (73, 11),
   .text c!"\n        ",
   .code c!"endfor" (74, 11),
   .text c!"\n\n\n        ",
   .code c!"if vector_valued" (77, 11),
   .text c!"\n\n            ",
   .code c!"if orders is None" (79, 15),
   .text c!"\n\n        # compute tensor reductions\n        for i_x in range(n_vals):\n            out[nn, i_x] = ",
   .code c!" get_values(d, multispline=True, k=k+1, i_x='i_x') " (83, 30),
   .text c!"\n\n            ",
   .code c!"else" (85, 15),
   .text c!"\n\n        # compute tensor reductions\n        for i_x in range(n_vals):\n                ",
   .code c!"for oo in orders" (89, 19),
   .text c!"\n            val_",
   .code c!"str(oo).strip(\"(\").strip(\")\").replace(\",\", \"\").replace(\" \", \"\")" (90, 19),
   .text c!" = ",
   .code c!"get_values(d, multispline=True, i_x='i_x', k=k+1, diffs=oo)" (90, 89),
   .text c!"\n                ",
   .code c!"endfor" (91, 19),
   .text c!"\n\n                ",
   .code c!"for j,oo in enumerate(orders)" (93, 19),
   .text c!"\n            out[nn, i_x, ",
   .code c!"j" (94, 28),
   .text c!"] = val_",
   .code c!"str(oo).strip(\"(\").strip(\")\").replace(\",\", \"\").replace(\" \", \"\")" (94, 41),
   .text c!"\n                ",
   .code c!"endfor" (95, 19),
   .text c!"\n\n            ",
   .code c!"endif" (97, 15),
   .text c!"\n\n\n        ",
   .code c!"else" (100, 11),
   .text c!"\n\n            ",
   .code c!"if isinstance(orders, (tuple, list))" (102, 15),
   .text c!"\n                ",
   .code c!"for oo in orders" (103, 19),
   .text c!"\n        val_",
   .code c!"str(oo).strip(\"(\").strip(\")\").replace(\",\", \"\").replace(\" \", \"\")" (104, 15),
   .text c!" = ",
   .code c!"get_values(d, multispline=False, k=k+1, diffs=oo)" (104, 85),
   .text c!"\n                ",
   .code c!"endfor" (105, 19),
   .text c!"\n\n\n                ",
   .code c!"for j,oo in enumerate(orders)" (108, 19),
   .text c!"\n        out[nn,",
   .code c!"j" (109, 18),
   .text c!"] = val_",
   .code c!"str(oo).strip(\"(\").strip(\")\").replace(\",\", \"\").replace(\" \", \"\")" (109, 31),
   .text c!"\n                ",
   .code c!"endfor" (110, 19),
   .text c!"\n\n            ",
   .code c!"else" (112, 15),
   .text c!"\n\n        out[nn] = ",
   .code c!"get_values(d, multispline=False, k=k+1)" (114, 21),
   .text c!"\n\n            ",
   .code c!"endif" (116, 15),
   .text c!"\n\n\n        ",
   .code c!"endif" (119, 11),
   .text c!"\n        \n    ",
   .code c!"if allocate" (121, 7),
   .text c!"\n    return out\n    ",
   .code c!"endif" (123, 7),
   .text c!"\n"]

/-- The chunks of `evalTemplateVectorized`. -/
def rowsLex : List Chunk :=
  [.text c!"\ndef eval_spline(grid, C, points, out=None, k=1, diff=\"None\", extrap_mode='linear'):\n    \"This is my docstring\"\n\n    N = points.shape[0]\n\n",
   .code c!"if vector_valued" (7, 7),
   .text c!"    n_vals = C.shape[",
   .code c!"d" (8, 24),
   .text c!"]\n",
   .code c!"endif" (9, 7),
   .text [],
   .code c!"if allocate" (11, 7),
   .text c!"    out = allocate_output(grid, C, points, ",
   .code c!"orders if orders is not None else \"None\"" (12, 46),
   .text c!")\n",
   .code c!"endif" (13, 7),
   .text c!"\n    #recover grid parameters\n",
   .code c!"for i in range(d)" (16, 7),
   .text [],
   .code c!"if (not grid_types) or (grid_types[i]=='uniform')" (17, 7),
   .text c!"    # dim ",
   .code c!"i" (18, 13),
   .text c!": uniform\n    a_",
   .code c!"i" (19, 9),
   .text c!" = grid[",
   .code c!"i" (19, 22),
   .text c!"][0]\n    b_",
   .code c!"i" (20, 9),
   .text c!" = grid[",
   .code c!"i" (20, 22),
   .text c!"][1]\n    n_",
   .code c!"i" (21, 9),
   .text c!" = grid[",
   .code c!"i" (21, 22),
   .text c!"][2]\n    δ_",
   .code c!"i" (22, 9),
   .text c!" = (n_",
   .code c!"i" (22, 20),
   .text c!"-1.0)/(b_",
   .code c!"i" (22, 34),
   .text c!"-a_",
   .code c!"i" (22, 42),
   .text c!")\n",
   .code c!"elif grid_types[i]=='nonuniform'" (23, 7),
   .text c!"    # dim ",
   .code c!"i" (24, 13),
   .text c!": nonuniform\n    gc_",
   .code c!"i" (25, 10),
   .text c!" = grid[",
   .code c!"i" (25, 23),
   .text c!"]\n    N_",
   .code c!"i" (26, 9),
   .text c!" = gc_",
   .code c!"i" (26, 20),
   .text c!".shape[0]\n    a_",
   .code c!"i" (27, 9),
   .text c!" = gc_",
   .code c!"i" (27, 20),
   .text c!"[0]\n    b_",
   .code c!"i" (28, 9),
   .text c!" = gc_",
   .code c!"i" (28, 20),
   .text c!"[N_",
   .code c!"i" (28, 28),
   .text c!"-1]\n",
   .code c!"endif" (29, 7),
   .text [],
   .code c!"endfor" (30, 7),
   .text c!"\n    for nn in range(N):\n\n        # extract coordinates\n",
   .code c!"for i in range(d)" (35, 11),
   .text c!"        x_",
   .code c!"i" (36, 13),
   .text c!" = points[nn,",
   .code c!"i" (36, 31),
   .text c!"]\n",
   .code c!"if extrap_mode == 'nearest'" (37, 11),
   .text c!"        x_",
   .code c!"i" (38, 13),
   .text c!" = max(a_",
   .code c!"i" (38, 27),
   .text c!", min(x_",
   .code c!"i" (38, 40),
   .text c!", b_",
   .code c!"i" (38, 49),
   .text c!"))\n",
   .code c!"endif" (39, 11),
   .text [],
   .code c!"if extrap_mode == 'constant'" (40, 11),
   .text c!"        if (x_",
   .code c!"i" (41, 17),
   .text c!"<a_",
   .code c!"i" (41, 25),
   .text c!") or (x_",
   .code c!"i" (41, 38),
   .text c!">b_",
   .code c!"i" (41, 46),
   .text c!"):\n",
   .code c!"if vector_valued" (42, 15),
   .text c!"            out[nn,:] = 0.0\n",
   .code c!"else" (44, 15),
   .text c!"            out[nn] = 0.0\n",
   .code c!"endif" (46, 15),
   .text c!"            continue\n",
   .code c!"endif" (48, 11),
   .text [],
   .code c!"endfor" (49, 11),
   .text c!"\n        # compute indices and barycentric coordinates\n",
   .code c!"for i in range(d)" (52, 11),
   .text [],
   .code c!"if (not grid_types) or (grid_types[i]=='uniform')" (54, 11),
   .text c!"        # dimension ",
   .code c!"i" (55, 23),
   .text c!": uniform grid\n        u_",
   .code c!"i" (56, 13),
   .text c!" = (x_",
   .code c!"i" (56, 24),
   .text c!" - a_",
   .code c!"i" (56, 34),
   .text c!")*δ_",
   .code c!"i" (56, 43),
   .text c!"\n        i_",
   .code c!"i" (57, 13),
   .text c!" = int( floor( u_",
   .code c!"i" (57, 35),
   .text c!" ) )\n        i_",
   .code c!"i" (58, 13),
   .text c!" = max( min(i_",
   .code c!"i" (58, 32),
   .text c!",n_",
   .code c!"i" (58, 40),
   .text c!"-2), 0 )\n        λ_",
   .code c!"i" (59, 13),
   .text c!" = u_",
   .code c!"i" (59, 23),
   .text c!"-i_",
   .code c!"i" (59, 31),
   .text c!"\n",
   .code c!"elif grid_types[i]=='nonuniform'" (60, 11),
   .text c!"        # dimension ",
   .code c!"i" (61, 23),
   .text c!": nonuniform grid\n        i_",
   .code c!"i" (62, 13),
   .text c!" = int(np.searchsorted(gc_",
   .code c!"i" (62, 44),
   .text c!", x_",
   .code c!"i" (62, 53),
   .text c!"))-1\n        i_",
   .code c!"i" (63, 13),
   .text c!" = min(max(i_",
   .code c!"i" (63, 31),
   .text c!", 0), N_",
   .code c!"i" (63, 44),
   .text c!"-2)\n        δ_",
   .code c!"i" (64, 13),
   .text c!" = (gc_",
   .code c!"i" (64, 25),
   .text c!"[i_",
   .code c!"i" (64, 33),
   .text c!"+1]-gc_",
   .code c!"i" (64, 45),
   .text c!"[i_",
   .code c!"i" (64, 53),
   .text c!"])\n        λ_",
   .code c!"i" (65, 13),
   .text c!" = (x_",
   .code c!"i" (65, 24),
   .text c!"-gc_",
   .code c!"i" (65, 33),
   .text c!"[i_",
   .code c!"i" (65, 41),
   .text c!"])/δ_",
   .code c!"i" (65, 51),
   .text c!"\n",
   .code c!"endif" (66, 11),
   .text [],
   .code c!"endfor" (67, 11),
   .text c!"\n        # Basis functions\n",
   .code c!"for i in range(d)" (70, 11),
   .text [],
   .code c!"for l in bases_orders[i]" (71, 11),
   .text [],
   .code c!"indent(blending_formula(k,l,i=i),levels=2)" (72, 3),
   .text c!"\n",
   .code c!"endfor" (73, 11),
   .text [],
   .code c!"endfor" (74, 11),
   .text [],
   .code c!"if vector_valued" (77, 11),
   .text [],
   .code c!"if orders is None" (79, 15),
   .text c!"\n        # compute tensor reductions\n        for i_x in range(n_vals):\n            out[nn, i_x] = ",
   .code c!" get_values(d, multispline=True, k=k+1, i_x='i_x') " (83, 30),
   .text c!"\n\n",
   .code c!"else" (85, 15),
   .text c!"\n        # compute tensor reductions\n        for i_x in range(n_vals):\n",
   .code c!"for oo in orders" (89, 19),
   .text c!"            val_",
   .code c!"str(oo).strip(\"(\").strip(\")\").replace(\",\", \"\").replace(\" \", \"\")" (90, 19),
   .text c!" = ",
   .code c!"get_values(d, multispline=True, i_x='i_x', k=k+1, diffs=oo)" (90, 89),
   .text c!"\n",
   .code c!"endfor" (91, 19),
   .text [],
   .code c!"for j,oo in enumerate(orders)" (93, 19),
   .text c!"            out[nn, i_x, ",
   .code c!"j" (94, 28),
   .text c!"] = val_",
   .code c!"str(oo).strip(\"(\").strip(\")\").replace(\",\", \"\").replace(\" \", \"\")" (94, 41),
   .text c!"\n",
   .code c!"endfor" (95, 19),
   .text [],
   .code c!"endif" (97, 15),
   .text [],
   .code c!"else" (100, 11),
   .text [],
   .code c!"if isinstance(orders, (tuple, list))" (102, 15),
   .text [],
   .code c!"for oo in orders" (103, 19),
   .text c!"        val_",
   .code c!"str(oo).strip(\"(\").strip(\")\").replace(\",\", \"\").replace(\" \", \"\")" (104, 15),
   .text c!" = ",
   .code c!"get_values(d, multispline=False, k=k+1, diffs=oo)" (104, 85),
   .text c!"\n",
   .code c!"endfor" (105, 19),
   .text [],
   .code c!"for j,oo in enumerate(orders)" (108, 19),
   .text c!"        out[nn,",
   .code c!"j" (109, 18),
   .text c!"] = val_",
   .code c!"str(oo).strip(\"(\").strip(\")\").replace(\",\", \"\").replace(\" \", \"\")" (109, 31),
   .text c!"\n",
   .code c!"endfor" (110, 19),
   .text [],
   .code c!"else" (112, 15),
   .text c!"\n        out[nn] = ",
   .code c!"get_values(d, multispline=False, k=k+1)" (114, 21),
   .text c!"\n\n",
   .code c!"endif" (116, 15),
   .text [],
   .code c!"endif" (119, 11),
   .text [],
   .code c!"if allocate" (121, 7),
   .text c!"    return out\n",
   .code c!"endif" (123, 7),
   .text []]

/-- Part 0 of the parsed `evalTemplateVectorized`. -/
def rows0 : Node :=
  .text c!"\ndef eval_spline(grid, C, points, out=None, k=1, diff=\"None\", extrap_mode='linear'):\n    \"This is my docstring\"\n\n    N = points.shape[0]\n\n"

/-- Part 1 of the parsed `evalTemplateVectorized`. -/
def rows1 : Node :=
  .cond (7, 7) <|
    .cons (some c!"vector_valued") (7, 7) (
      .cons (.text c!"    n_vals = C.shape[") <|
      .cons (.expr (8, 24) c!"d") <|
      .cons (.text c!"]\n") <|
      .nil) <|
    .nil

/-- Part 2 of the parsed `evalTemplateVectorized`. -/
def rows2 : Node :=
  .text []

/-- Part 3 of the parsed `evalTemplateVectorized`. -/
def rows3 : Node :=
  .cond (11, 7) <|
    .cons (some c!"allocate") (11, 7) (
      .cons (.text c!"    out = allocate_output(grid, C, points, ") <|
      .cons (.expr (12, 46) c!"orders if orders is not None else \"None\"") <|
      .cons (.text c!")\n") <|
      .nil) <|
    .nil

/-- Part 4 of the parsed `evalTemplateVectorized`. -/
def rows4 : Node :=
  .text c!"\n    #recover grid parameters\n"

/-- Part 5 of the parsed `evalTemplateVectorized`. -/
def rows5 : Node :=
  .forIn (16, 7) [c!"i"] c!"range(d)" <|
    .cons (.text []) <|
    .cons (.cond (17, 7) <|
      .cons (some c!"(not grid_types) or (grid_types[i]=='uniform')") (17, 7) (
        .cons (.text c!"    # dim ") <|
        .cons (.expr (18, 13) c!"i") <|
        .cons (.text c!": uniform\n    a_") <|
        .cons (.expr (19, 9) c!"i") <|
        .cons (.text c!" = grid[") <|
        .cons (.expr (19, 22) c!"i") <|
        .cons (.text c!"][0]\n    b_") <|
        .cons (.expr (20, 9) c!"i") <|
        .cons (.text c!" = grid[") <|
        .cons (.expr (20, 22) c!"i") <|
        .cons (.text c!"][1]\n    n_") <|
        .cons (.expr (21, 9) c!"i") <|
        .cons (.text c!" = grid[") <|
        .cons (.expr (21, 22) c!"i") <|
        .cons (.text c!"][2]\n    δ_") <|
        .cons (.expr (22, 9) c!"i") <|
        .cons (.text c!" = (n_") <|
        .cons (.expr (22, 20) c!"i") <|
        .cons (.text c!"-1.0)/(b_") <|
        .cons (.expr (22, 34) c!"i") <|
        .cons (.text c!"-a_") <|
        .cons (.expr (22, 42) c!"i") <|
        .cons (.text c!")\n") <|
        .nil) <|
      .cons (some c!"grid_types[i]=='nonuniform'") (23, 7) (
        .cons (.text c!"    # dim ") <|
        .cons (.expr (24, 13) c!"i") <|
        .cons (.text c!": nonuniform\n    gc_") <|
        .cons (.expr (25, 10) c!"i") <|
        .cons (.text c!" = grid[") <|
        .cons (.expr (25, 23) c!"i") <|
        .cons (.text c!"]\n    N_") <|
        .cons (.expr (26, 9) c!"i") <|
        .cons (.text c!" = gc_") <|
        .cons (.expr (26, 20) c!"i") <|
        .cons (.text c!".shape[0]\n    a_") <|
        .cons (.expr (27, 9) c!"i") <|
        .cons (.text c!" = gc_") <|
        .cons (.expr (27, 20) c!"i") <|
        .cons (.text c!"[0]\n    b_") <|
        .cons (.expr (28, 9) c!"i") <|
        .cons (.text c!" = gc_") <|
        .cons (.expr (28, 20) c!"i") <|
        .cons (.text c!"[N_") <|
        .cons (.expr (28, 28) c!"i") <|
        .cons (.text c!"-1]\n") <|
        .nil) <|
      .nil) <|
    .cons (.text []) <|
    .nil

/-- Part 6 of the parsed `evalTemplateVectorized`. -/
def rows6 : Node :=
  .text c!"\n    for nn in range(N):\n\n        # extract coordinates\n"

/-- Part 7 of the parsed `evalTemplateVectorized`. -/
def rows7 : Node :=
  .forIn (35, 11) [c!"i"] c!"range(d)" <|
    .cons (.text c!"        x_") <|
    .cons (.expr (36, 13) c!"i") <|
    .cons (.text c!" = points[nn,") <|
    .cons (.expr (36, 31) c!"i") <|
    .cons (.text c!"]\n") <|
    .cons (.cond (37, 11) <|
      .cons (some c!"extrap_mode == 'nearest'") (37, 11) (
        .cons (.text c!"        x_") <|
        .cons (.expr (38, 13) c!"i") <|
        .cons (.text c!" = max(a_") <|
        .cons (.expr (38, 27) c!"i") <|
        .cons (.text c!", min(x_") <|
        .cons (.expr (38, 40) c!"i") <|
        .cons (.text c!", b_") <|
        .cons (.expr (38, 49) c!"i") <|
        .cons (.text c!"))\n") <|
        .nil) <|
      .nil) <|
    .cons (.text []) <|
    .cons (.cond (40, 11) <|
      .cons (some c!"extrap_mode == 'constant'") (40, 11) (
        .cons (.text c!"        if (x_") <|
        .cons (.expr (41, 17) c!"i") <|
        .cons (.text c!"<a_") <|
        .cons (.expr (41, 25) c!"i") <|
        .cons (.text c!") or (x_") <|
        .cons (.expr (41, 38) c!"i") <|
        .cons (.text c!">b_") <|
        .cons (.expr (41, 46) c!"i") <|
        .cons (.text c!"):\n") <|
        .cons (.cond (42, 15) <|
          .cons (some c!"vector_valued") (42, 15) (
            .cons (.text c!"            out[nn,:] = 0.0\n") <|
            .nil) <|
          .cons none (44, 15) (
            .cons (.text c!"            out[nn] = 0.0\n") <|
            .nil) <|
          .nil) <|
        .cons (.text c!"            continue\n") <|
        .nil) <|
      .nil) <|
    .cons (.text []) <|
    .nil

/-- Part 8 of the parsed `evalTemplateVectorized`. -/
def rows8 : Node :=
  .text c!"\n        # compute indices and barycentric coordinates\n"

/-- Part 9 of the parsed `evalTemplateVectorized`. -/
def rows9 : Node :=
  .forIn (52, 11) [c!"i"] c!"range(d)" <|
    .cons (.text []) <|
    .cons (.cond (54, 11) <|
      .cons (some c!"(not grid_types) or (grid_types[i]=='uniform')") (54, 11) (
        .cons (.text c!"        # dimension ") <|
        .cons (.expr (55, 23) c!"i") <|
        .cons (.text c!": uniform grid\n        u_") <|
        .cons (.expr (56, 13) c!"i") <|
        .cons (.text c!" = (x_") <|
        .cons (.expr (56, 24) c!"i") <|
        .cons (.text c!" - a_") <|
        .cons (.expr (56, 34) c!"i") <|
        .cons (.text c!")*δ_") <|
        .cons (.expr (56, 43) c!"i") <|
        .cons (.text c!"\n        i_") <|
        .cons (.expr (57, 13) c!"i") <|
        .cons (.text c!" = int( floor( u_") <|
        .cons (.expr (57, 35) c!"i") <|
        .cons (.text c!" ) )\n        i_") <|
        .cons (.expr (58, 13) c!"i") <|
        .cons (.text c!" = max( min(i_") <|
        .cons (.expr (58, 32) c!"i") <|
        .cons (.text c!",n_") <|
        .cons (.expr (58, 40) c!"i") <|
        .cons (.text c!"-2), 0 )\n        λ_") <|
        .cons (.expr (59, 13) c!"i") <|
        .cons (.text c!" = u_") <|
        .cons (.expr (59, 23) c!"i") <|
        .cons (.text c!"-i_") <|
        .cons (.expr (59, 31) c!"i") <|
        .cons (.text c!"\n") <|
        .nil) <|
      .cons (some c!"grid_types[i]=='nonuniform'") (60, 11) (
        .cons (.text c!"        # dimension ") <|
        .cons (.expr (61, 23) c!"i") <|
        .cons (.text c!": nonuniform grid\n        i_") <|
        .cons (.expr (62, 13) c!"i") <|
        .cons (.text c!" = int(np.searchsorted(gc_") <|
        .cons (.expr (62, 44) c!"i") <|
        .cons (.text c!", x_") <|
        .cons (.expr (62, 53) c!"i") <|
        .cons (.text c!"))-1\n        i_") <|
        .cons (.expr (63, 13) c!"i") <|
        .cons (.text c!" = min(max(i_") <|
        .cons (.expr (63, 31) c!"i") <|
        .cons (.text c!", 0), N_") <|
        .cons (.expr (63, 44) c!"i") <|
        .cons (.text c!"-2)\n        δ_") <|
        .cons (.expr (64, 13) c!"i") <|
        .cons (.text c!" = (gc_") <|
        .cons (.expr (64, 25) c!"i") <|
        .cons (.text c!"[i_") <|
        .cons (.expr (64, 33) c!"i") <|
        .cons (.text c!"+1]-gc_") <|
        .cons (.expr (64, 45) c!"i") <|
        .cons (.text c!"[i_") <|
        .cons (.expr (64, 53) c!"i") <|
        .cons (.text c!"])\n        λ_") <|
        .cons (.expr (65, 13) c!"i") <|
        .cons (.text c!" = (x_") <|
        .cons (.expr (65, 24) c!"i") <|
        .cons (.text c!"-gc_") <|
        .cons (.expr (65, 33) c!"i") <|
        .cons (.text c!"[i_") <|
        .cons (.expr (65, 41) c!"i") <|
        .cons (.text c!"])/δ_") <|
        .cons (.expr (65, 51) c!"i") <|
        .cons (.text c!"\n") <|
        .nil) <|
      .nil) <|
    .cons (.text []) <|
    .nil

/-- Part 10 of the parsed `evalTemplateVectorized`. -/
def rows10 : Node :=
  .text c!"\n        # Basis functions\n"

/-- Part 11 of the parsed `evalTemplateVectorized`. -/
def rows11 : Node :=
  .forIn (70, 11) [c!"i"] c!"range(d)" <|
    .cons (.text []) <|
    .cons (.forIn (71, 11) [c!"l"] c!"bases_orders[i]" <|
      .cons (.text []) <|
      .cons (.expr (72, 3) c!"indent(blending_formula(k,l,i=i),levels=2)") <|
      .cons (.text c!"\n") <|
      .nil) <|
    .cons (.text []) <|
    .nil

/-- Part 12 of the parsed `evalTemplateVectorized`. -/
def rows12 : Node :=
  .text []

/-- Part 13 of the parsed `evalTemplateVectorized`. -/
def rows13 : Node :=
  .cond (77, 11) <|
    .cons (some c!"vector_valued") (77, 11) (
      .cons (.text []) <|
      .cons (.cond (79, 15) <|
        .cons (some c!"orders is None") (79, 15) (
          .cons (.text c!"\n        # compute tensor reductions\n        for i_x in range(n_vals):\n            out[nn, i_x] = ") <|
          .cons (.expr (83, 30) c!" get_values(d, multispline=True, k=k+1, i_x='i_x') ") <|
          .cons (.text c!"\n\n") <|
          .nil) <|
        .cons none (85, 15) (
          .cons (.text c!"\n        # compute tensor reductions\n        for i_x in range(n_vals):\n") <|
          .cons (.forIn (89, 19) [c!"oo"] c!"orders" <|
            .cons (.text c!"            val_") <|
            .cons (.expr (90, 19) c!"str(oo).strip(\"(\").strip(\")\").replace(\",\", \"\").replace(\" \", \"\")") <|
            .cons (.text c!" = ") <|
            .cons (.expr (90, 89) c!"get_values(d, multispline=True, i_x='i_x', k=k+1, diffs=oo)") <|
            .cons (.text c!"\n") <|
            .nil) <|
          .cons (.text []) <|
          .cons (.forIn (93, 19) [c!"j", c!"oo"] c!"enumerate(orders)" <|
            .cons (.text c!"            out[nn, i_x, ") <|
            .cons (.expr (94, 28) c!"j") <|
            .cons (.text c!"] = val_") <|
            .cons (.expr (94, 41) c!"str(oo).strip(\"(\").strip(\")\").replace(\",\", \"\").replace(\" \", \"\")") <|
            .cons (.text c!"\n") <|
            .nil) <|
          .cons (.text []) <|
          .nil) <|
        .nil) <|
      .cons (.text []) <|
      .nil) <|
    .cons none (100, 11) (
      .cons (.text []) <|
      .cons (.cond (102, 15) <|
        .cons (some c!"isinstance(orders, (tuple, list))") (102, 15) (
          .cons (.text []) <|
          .cons (.forIn (103, 19) [c!"oo"] c!"orders" <|
            .cons (.text c!"        val_") <|
            .cons (.expr (104, 15) c!"str(oo).strip(\"(\").strip(\")\").replace(\",\", \"\").replace(\" \", \"\")") <|
            .cons (.text c!" = ") <|
            .cons (.expr (104, 85) c!"get_values(d, multispline=False, k=k+1, diffs=oo)") <|
            .cons (.text c!"\n") <|
            .nil) <|
          .cons (.text []) <|
          .cons (.forIn (108, 19) [c!"j", c!"oo"] c!"enumerate(orders)" <|
            .cons (.text c!"        out[nn,") <|
            .cons (.expr (109, 18) c!"j") <|
            .cons (.text c!"] = val_") <|
            .cons (.expr (109, 31) c!"str(oo).strip(\"(\").strip(\")\").replace(\",\", \"\").replace(\" \", \"\")") <|
            .cons (.text c!"\n") <|
            .nil) <|
          .cons (.text []) <|
          .nil) <|
        .cons none (112, 15) (
          .cons (.text c!"\n        out[nn] = ") <|
          .cons (.expr (114, 21) c!"get_values(d, multispline=False, k=k+1)") <|
          .cons (.text c!"\n\n") <|
          .nil) <|
        .nil) <|
      .cons (.text []) <|
      .nil) <|
    .nil

/-- Part 14 of the parsed `evalTemplateVectorized`. -/
def rows14 : Node :=
  .text []

/-- Part 15 of the parsed `evalTemplateVectorized`. -/
def rows15 : Node :=
  .cond (121, 7) <|
    .cons (some c!"allocate") (121, 7) (
      .cons (.text c!"    return out\n") <|
      .nil) <|
    .nil

/-- Part 16 of the parsed `evalTemplateVectorized`. -/
def rows16 : Node :=
  .text []

/-- The parsed `evalTemplateVectorized`. -/
def rowsTree : Nodes :=
  .cons rows0 <|
  .cons rows1 <|
  .cons rows2 <|
  .cons rows3 <|
  .cons rows4 <|
  .cons rows5 <|
  .cons rows6 <|
  .cons rows7 <|
  .cons rows8 <|
  .cons rows9 <|
  .cons rows10 <|
  .cons rows11 <|
  .cons rows12 <|
  .cons rows13 <|
  .cons rows14 <|
  .cons rows15 <|
  .cons rows16 <|
  .nil

theorem rows_raw : lexRaw (evalTemplateVectorized) = .ok rowsRaw := by decide +kernel

theorem rows_trim : trimLex rowsRaw = rowsLex := by decide +kernel

theorem rows_all : parseAll (depth rowsLex) rowsLex = .ok rowsTree := by decide +kernel

theorem rows_parse : parse (evalTemplateVectorized) = .ok rowsTree := parse_of rows_raw rows_trim rows_all

/-- The chunks of `blendHead0 ++ blendTail` before trimming. -/
def blendARaw : List Chunk :=
  [.text c!"\nμ_",
   .code c!"i" (2, 5),
   .text c!"_0 = λ_",
   .code c!"i" (2, 17),
   .text c!"*λ_",
   .code c!"i" (2, 25),
   .text c!"*λ_",
   .code c!"i" (2, 33),
   .text c!";  μ_",
   .code c!"i" (2, 43),
   .text c!"_1 = λ_",
   .code c!"i" (2, 55),
   .text c!"*λ_",
   .code c!"i" (2, 63),
   .text c!";  μ_",
   .code c!"i" (2, 73),
   .text c!"_2 = λ_",
   .code c!"i" (2, 85),
   .text c!";  μ_",
   .code c!"i" (2, 95),
   .text c!"_3 = 1.0;\n        \n",
   .code c!"for j in range(4)" (4, 3),
   .text c!"\n",
   .code c!"phi(i,j)" (5, 3),
   .text c!"= 0.0\n",
   .code c!"endfor" (6, 3),
   .text c!"\nif λ_",
   .code c!"i" (7, 8),
   .text c!" < 0:\n    ",
   .code c!"for j in range(4)" (8, 7),
   .text c!"\n    ",
   .code c!"phi(i,j)" (9, 7),
   .text c!" = dCd[",
   .code c!"j" (9, 26),
   .text c!",3]*μ_",
   .code c!"i" (9, 37),
   .text c!"_2 + Cd[",
   .code c!"j" (9, 50),
   .text c!",3]*μ_",
   .code c!"i" (9, 61),
   .text c!"_3\n    ",
   .code c!"endfor" (10, 7),
   .text c!"\nelif λ_",
   .code c!"i" (11, 10),
   .text c!" > 1:\n    ",
   .code c!"for j in range(4)" (12, 7),
   .text c!"\n    ",
   .code c!"phi(i,j)" (13, 7),
   .text c!" = (3*Cd[",
   .code c!"j" (13, 28),
   .text c!",0] + 2*Cd[",
   .code c!"j" (13, 44),
   .text c!",1] + Cd[",
   .code c!"j" (13, 58),
   .text c!",2])*(μ_",
   .code c!"i" (13, 71),
   .text c!"_2-μ_",
   .code c!"i" (13, 81),
   .text c!"_3) + (Cd[",
   .code c!"j" (13, 96),
   .text c!",0]+Cd[",
   .code c!"j" (13, 108),
   .text c!",1]+Cd[",
   .code c!"j" (13, 120),
   .text c!",2]+Cd[",
   .code c!"j" (13, 132),
   .text c!",3])*μ_",
   .code c!"i" (13, 144),
   .text c!"_3\n    ",
   .code c!"endfor" (14, 7),
   .text c!"\nelse:\n    ",
   .code c!"for j in range(4)" (16, 7),
   .text c!"\n    ",
   .code c!"phi(i,j)" (17, 7),
   .text c!" = (Cd[",
   .code c!"j" (17, 26),
   .text c!",0]*μ_",
   .code c!"i" (17, 37),
   .text c!"_0 + Cd[",
   .code c!"j" (17, 50),
   .text c!",1]*μ_",
   .code c!"i" (17, 61),
   .text c!"_1 + Cd[",
   .code c!"j" (17, 74),
   .text c!",2]*μ_",
   .code c!"i" (17, 85),
   .text c!"_2 + Cd[",
   .code c!"j" (17, 98),
   .text c!",3]*μ_",
   .code c!"i" (17, 109),
   .text c!"_3)\n    ",
   .code c!"endfor" (18, 7),
   .text c!"\n"]

/-- The chunks of `blendHead0 ++ blendTail`. -/
def blendALex : List Chunk :=
  [.text c!"\nμ_",
   .code c!"i" (2, 5),
   .text c!"_0 = λ_",
   .code c!"i" (2, 17),
   .text c!"*λ_",
   .code c!"i" (2, 25),
   .text c!"*λ_",
   .code c!"i" (2, 33),
   .text c!";  μ_",
   .code c!"i" (2, 43),
   .text c!"_1 = λ_",
   .code c!"i" (2, 55),
   .text c!"*λ_",
   .code c!"i" (2, 63),
   .text c!";  μ_",
   .code c!"i" (2, 73),
   .text c!"_2 = λ_",
   .code c!"i" (2, 85),
   .text c!";  μ_",
   .code c!"i" (2, 95),
   .text c!"_3 = 1.0;\n",
   .code c!"for j in range(4)" (4, 3),
   .text [],
   .code c!"phi(i,j)" (5, 3),
   .text c!"= 0.0\n",
   .code c!"endfor" (6, 3),
   .text c!"if λ_",
   .code c!"i" (7, 8),
   .text c!" < 0:\n",
   .code c!"for j in range(4)" (8, 7),
   .text c!"    ",
   .code c!"phi(i,j)" (9, 7),
   .text c!" = dCd[",
   .code c!"j" (9, 26),
   .text c!",3]*μ_",
   .code c!"i" (9, 37),
   .text c!"_2 + Cd[",
   .code c!"j" (9, 50),
   .text c!",3]*μ_",
   .code c!"i" (9, 61),
   .text c!"_3\n",
   .code c!"endfor" (10, 7),
   .text c!"elif λ_",
   .code c!"i" (11, 10),
   .text c!" > 1:\n",
   .code c!"for j in range(4)" (12, 7),
   .text c!"    ",
   .code c!"phi(i,j)" (13, 7),
   .text c!" = (3*Cd[",
   .code c!"j" (13, 28),
   .text c!",0] + 2*Cd[",
   .code c!"j" (13, 44),
   .text c!",1] + Cd[",
   .code c!"j" (13, 58),
   .text c!",2])*(μ_",
   .code c!"i" (13, 71),
   .text c!"_2-μ_",
   .code c!"i" (13, 81),
   .text c!"_3) + (Cd[",
   .code c!"j" (13, 96),
   .text c!",0]+Cd[",
   .code c!"j" (13, 108),
   .text c!",1]+Cd[",
   .code c!"j" (13, 120),
   .text c!",2]+Cd[",
   .code c!"j" (13, 132),
   .text c!",3])*μ_",
   .code c!"i" (13, 144),
   .text c!"_3\n",
   .code c!"endfor" (14, 7),
   .text c!"else:\n",
   .code c!"for j in range(4)" (16, 7),
   .text c!"    ",
   .code c!"phi(i,j)" (17, 7),
   .text c!" = (Cd[",
   .code c!"j" (17, 26),
   .text c!",0]*μ_",
   .code c!"i" (17, 37),
   .text c!"_0 + Cd[",
   .code c!"j" (17, 50),
   .text c!",1]*μ_",
   .code c!"i" (17, 61),
   .text c!"_1 + Cd[",
   .code c!"j" (17, 74),
   .text c!",2]*μ_",
   .code c!"i" (17, 85),
   .text c!"_2 + Cd[",
   .code c!"j" (17, 98),
   .text c!",3]*μ_",
   .code c!"i" (17, 109),
   .text c!"_3)\n",
   .code c!"endfor" (18, 7),
   .text []]

/-- Part 0 of the parsed `blendHead0 ++ blendTail`. -/
def blendA0 : Node :=
  .text c!"\nμ_"

/-- Part 1 of the parsed `blendHead0 ++ blendTail`. -/
def blendA1 : Node :=
  .expr (2, 5) c!"i"

/-- Part 2 of the parsed `blendHead0 ++ blendTail`. -/
def blendA2 : Node :=
  .text c!"_0 = λ_"

/-- Part 3 of the parsed `blendHead0 ++ blendTail`. -/
def blendA3 : Node :=
  .expr (2, 17) c!"i"

/-- Part 4 of the parsed `blendHead0 ++ blendTail`. -/
def blendA4 : Node :=
  .text c!"*λ_"

/-- Part 5 of the parsed `blendHead0 ++ blendTail`. -/
def blendA5 : Node :=
  .expr (2, 25) c!"i"

/-- Part 6 of the parsed `blendHead0 ++ blendTail`. -/
def blendA6 : Node :=
  .text c!"*λ_"

/-- Part 7 of the parsed `blendHead0 ++ blendTail`. -/
def blendA7 : Node :=
  .expr (2, 33) c!"i"

/-- Part 8 of the parsed `blendHead0 ++ blendTail`. -/
def blendA8 : Node :=
  .text c!";  μ_"

/-- Part 9 of the parsed `blendHead0 ++ blendTail`. -/
def blendA9 : Node :=
  .expr (2, 43) c!"i"

/-- Part 10 of the parsed `blendHead0 ++ blendTail`. -/
def blendA10 : Node :=
  .text c!"_1 = λ_"

/-- Part 11 of the parsed `blendHead0 ++ blendTail`. -/
def blendA11 : Node :=
  .expr (2, 55) c!"i"

/-- Part 12 of the parsed `blendHead0 ++ blendTail`. -/
def blendA12 : Node :=
  .text c!"*λ_"

/-- Part 13 of the parsed `blendHead0 ++ blendTail`. -/
def blendA13 : Node :=
  .expr (2, 63) c!"i"

/-- Part 14 of the parsed `blendHead0 ++ blendTail`. -/
def blendA14 : Node :=
  .text c!";  μ_"

/-- Part 15 of the parsed `blendHead0 ++ blendTail`. -/
def blendA15 : Node :=
  .expr (2, 73) c!"i"

/-- Part 16 of the parsed `blendHead0 ++ blendTail`. -/
def blendA16 : Node :=
  .text c!"_2 = λ_"

/-- Part 17 of the parsed `blendHead0 ++ blendTail`. -/
def blendA17 : Node :=
  .expr (2, 85) c!"i"

/-- Part 18 of the parsed `blendHead0 ++ blendTail`. -/
def blendA18 : Node :=
  .text c!";  μ_"

/-- Part 19 of the parsed `blendHead0 ++ blendTail`. -/
def blendA19 : Node :=
  .expr (2, 95) c!"i"

/-- Part 20 of the parsed `blendHead0 ++ blendTail`. -/
def blendA20 : Node :=
  .text c!"_3 = 1.0;\n"

/-- Part 21 of the parsed `blendHead0 ++ blendTail`. -/
def blendA21 : Node :=
  .forIn (4, 3) [c!"j"] c!"range(4)" <|
    .cons (.text []) <|
    .cons (.expr (5, 3) c!"phi(i,j)") <|
    .cons (.text c!"= 0.0\n") <|
    .nil

/-- Part 22 of the parsed `blendHead0 ++ blendTail`. -/
def blendA22 : Node :=
  .text c!"if λ_"

/-- Part 23 of the parsed `blendHead0 ++ blendTail`. -/
def blendA23 : Node :=
  .expr (7, 8) c!"i"

/-- Part 24 of the parsed `blendHead0 ++ blendTail`. -/
def blendA24 : Node :=
  .text c!" < 0:\n"

/-- Part 25 of the parsed `blendHead0 ++ blendTail`. -/
def blendA25 : Node :=
  .forIn (8, 7) [c!"j"] c!"range(4)" <|
    .cons (.text c!"    ") <|
    .cons (.expr (9, 7) c!"phi(i,j)") <|
    .cons (.text c!" = dCd[") <|
    .cons (.expr (9, 26) c!"j") <|
    .cons (.text c!",3]*μ_") <|
    .cons (.expr (9, 37) c!"i") <|
    .cons (.text c!"_2 + Cd[") <|
    .cons (.expr (9, 50) c!"j") <|
    .cons (.text c!",3]*μ_") <|
    .cons (.expr (9, 61) c!"i") <|
    .cons (.text c!"_3\n") <|
    .nil

/-- Part 26 of the parsed `blendHead0 ++ blendTail`. -/
def blendA26 : Node :=
  .text c!"elif λ_"

/-- Part 27 of the parsed `blendHead0 ++ blendTail`. -/
def blendA27 : Node :=
  .expr (11, 10) c!"i"

/-- Part 28 of the parsed `blendHead0 ++ blendTail`. -/
def blendA28 : Node :=
  .text c!" > 1:\n"

/-- Part 29 of the parsed `blendHead0 ++ blendTail`. -/
def blendA29 : Node :=
  .forIn (12, 7) [c!"j"] c!"range(4)" <|
    .cons (.text c!"    ") <|
    .cons (.expr (13, 7) c!"phi(i,j)") <|
    .cons (.text c!" = (3*Cd[") <|
    .cons (.expr (13, 28) c!"j") <|
    .cons (.text c!",0] + 2*Cd[") <|
    .cons (.expr (13, 44) c!"j") <|
    .cons (.text c!",1] + Cd[") <|
    .cons (.expr (13, 58) c!"j") <|
    .cons (.text c!",2])*(μ_") <|
    .cons (.expr (13, 71) c!"i") <|
    .cons (.text c!"_2-μ_") <|
    .cons (.expr (13, 81) c!"i") <|
    .cons (.text c!"_3) + (Cd[") <|
    .cons (.expr (13, 96) c!"j") <|
    .cons (.text c!",0]+Cd[") <|
    .cons (.expr (13, 108) c!"j") <|
    .cons (.text c!",1]+Cd[") <|
    .cons (.expr (13, 120) c!"j") <|
    .cons (.text c!",2]+Cd[") <|
    .cons (.expr (13, 132) c!"j") <|
    .cons (.text c!",3])*μ_") <|
    .cons (.expr (13, 144) c!"i") <|
    .cons (.text c!"_3\n") <|
    .nil

/-- Part 30 of the parsed `blendHead0 ++ blendTail`. -/
def blendA30 : Node :=
  .text c!"else:\n"

/-- Part 31 of the parsed `blendHead0 ++ blendTail`. -/
def blendA31 : Node :=
  .forIn (16, 7) [c!"j"] c!"range(4)" <|
    .cons (.text c!"    ") <|
    .cons (.expr (17, 7) c!"phi(i,j)") <|
    .cons (.text c!" = (Cd[") <|
    .cons (.expr (17, 26) c!"j") <|
    .cons (.text c!",0]*μ_") <|
    .cons (.expr (17, 37) c!"i") <|
    .cons (.text c!"_0 + Cd[") <|
    .cons (.expr (17, 50) c!"j") <|
    .cons (.text c!",1]*μ_") <|
    .cons (.expr (17, 61) c!"i") <|
    .cons (.text c!"_1 + Cd[") <|
    .cons (.expr (17, 74) c!"j") <|
    .cons (.text c!",2]*μ_") <|
    .cons (.expr (17, 85) c!"i") <|
    .cons (.text c!"_2 + Cd[") <|
    .cons (.expr (17, 98) c!"j") <|
    .cons (.text c!",3]*μ_") <|
    .cons (.expr (17, 109) c!"i") <|
    .cons (.text c!"_3)\n") <|
    .nil

/-- Part 32 of the parsed `blendHead0 ++ blendTail`. -/
def blendA32 : Node :=
  .text []

/-- The parsed `blendHead0 ++ blendTail`. -/
def blendATree : Nodes :=
  .cons blendA0 <|
  .cons blendA1 <|
  .cons blendA2 <|
  .cons blendA3 <|
  .cons blendA4 <|
  .cons blendA5 <|
  .cons blendA6 <|
  .cons blendA7 <|
  .cons blendA8 <|
  .cons blendA9 <|
  .cons blendA10 <|
  .cons blendA11 <|
  .cons blendA12 <|
  .cons blendA13 <|
  .cons blendA14 <|
  .cons blendA15 <|
  .cons blendA16 <|
  .cons blendA17 <|
  .cons blendA18 <|
  .cons blendA19 <|
  .cons blendA20 <|
  .cons blendA21 <|
  .cons blendA22 <|
  .cons blendA23 <|
  .cons blendA24 <|
  .cons blendA25 <|
  .cons blendA26 <|
  .cons blendA27 <|
  .cons blendA28 <|
  .cons blendA29 <|
  .cons blendA30 <|
  .cons blendA31 <|
  .cons blendA32 <|
  .nil

theorem blendA_raw : lexRaw (blendHead0 ++ blendTail) = .ok blendARaw := by decide +kernel

theorem blendA_trim : trimLex blendARaw = blendALex := by decide +kernel

theorem blendA_all : parseAll (depth blendALex) blendALex = .ok blendATree := by decide +kernel

theorem blendA_parse : parse (blendHead0 ++ blendTail) = .ok blendATree := parse_of blendA_raw blendA_trim blendA_all

/-- The chunks of `blendHead1 ++ blendTail` before trimming. -/
def blendBRaw : List Chunk :=
  [.text c!"\nμ_",
   .code c!"i" (2, 5),
   .text c!"_0 = 3*λ_",
   .code c!"i" (2, 19),
   .text c!"*λ_",
   .code c!"i" (2, 27),
   .text c!"*δ_",
   .code c!"i" (2, 35),
   .text c!";  μ_",
   .code c!"i" (2, 45),
   .text c!"_1 = 2*λ_",
   .code c!"i" (2, 59),
   .text c!"*δ_",
   .code c!"i" (2, 67),
   .text c!";  μ_",
   .code c!"i" (2, 77),
   .text c!"_2 = δ_",
   .code c!"i" (2, 89),
   .text c!";  μ_",
   .code c!"i" (2, 99),
   .text c!"_3 = 0.0;\n        \n",
   .code c!"for j in range(4)" (4, 3),
   .text c!"\n",
   .code c!"phi(i,j)" (5, 3),
   .text c!"= 0.0\n",
   .code c!"endfor" (6, 3),
   .text c!"\nif λ_",
   .code c!"i" (7, 8),
   .text c!" < 0:\n    ",
   .code c!"for j in range(4)" (8, 7),
   .text c!"\n    ",
   .code c!"phi(i,j)" (9, 7),
   .text c!" = dCd[",
   .code c!"j" (9, 26),
   .text c!",3]*μ_",
   .code c!"i" (9, 37),
   .text c!"_2 + Cd[",
   .code c!"j" (9, 50),
   .text c!",3]*μ_",
   .code c!"i" (9, 61),
   .text c!"_3\n    ",
   .code c!"endfor" (10, 7),
   .text c!"\nelif λ_",
   .code c!"i" (11, 10),
   .text c!" > 1:\n    ",
   .code c!"for j in range(4)" (12, 7),
   .text c!"\n    ",
   .code c!"phi(i,j)" (13, 7),
   .text c!" = (3*Cd[",
   .code c!"j" (13, 28),
   .text c!",0] + 2*Cd[",
   .code c!"j" (13, 44),
   .text c!",1] + Cd[",
   .code c!"j" (13, 58),
   .text c!",2])*(μ_",
   .code c!"i" (13, 71),
   .text c!"_2-μ_",
   .code c!"i" (13, 81),
   .text c!"_3) + (Cd[",
   .code c!"j" (13, 96),
   .text c!",0]+Cd[",
   .code c!"j" (13, 108),
   .text c!",1]+Cd[",
   .code c!"j" (13, 120),
   .text c!",2]+Cd[",
   .code c!"j" (13, 132),
   .text c!",3])*μ_",
   .code c!"i" (13, 144),
   .text c!"_3\n    ",
   .code c!"endfor" (14, 7),
   .text c!"\nelse:\n    ",
   .code c!"for j in range(4)" (16, 7),
   .text c!"\n    ",
   .code c!"phi(i,j)" (17, 7),
   .text c!" = (Cd[",
   .code c!"j" (17, 26),
   .text c!",0]*μ_",
   .code c!"i" (17, 37),
   .text c!"_0 + Cd[",
   .code c!"j" (17, 50),
   .text c!",1]*μ_",
   .code c!"i" (17, 61),
   .text c!"_1 + Cd[",
   .code c!"j" (17, 74),
   .text c!",2]*μ_",
   .code c!"i" (17, 85),
   .text c!"_2 + Cd[",
   .code c!"j" (17, 98),
   .text c!",3]*μ_",
   .code c!"i" (17, 109),
   .text c!"_3)\n    ",
   .code c!"endfor" (18, 7),
   .text c!"\n"]

/-- The chunks of `blendHead1 ++ blendTail`. -/
def blendBLex : List Chunk :=
  [.text c!"\nμ_",
   .code c!"i" (2, 5),
   .text c!"_0 = 3*λ_",
   .code c!"i" (2, 19),
   .text c!"*λ_",
   .code c!"i" (2, 27),
   .text c!"*δ_",
   .code c!"i" (2, 35),
   .text c!";  μ_",
   .code c!"i" (2, 45),
   .text c!"_1 = 2*λ_",
   .code c!"i" (2, 59),
   .text c!"*δ_",
   .code c!"i" (2, 67),
   .text c!";  μ_",
   .code c!"i" (2, 77),
   .text c!"_2 = δ_",
   .code c!"i" (2, 89),
   .text c!";  μ_",
   .code c!"i" (2, 99),
   .text c!"_3 = 0.0;\n",
   .code c!"for j in range(4)" (4, 3),
   .text [],
   .code c!"phi(i,j)" (5, 3),
   .text c!"= 0.0\n",
   .code c!"endfor" (6, 3),
   .text c!"if λ_",
   .code c!"i" (7, 8),
   .text c!" < 0:\n",
   .code c!"for j in range(4)" (8, 7),
   .text c!"    ",
   .code c!"phi(i,j)" (9, 7),
   .text c!" = dCd[",
   .code c!"j" (9, 26),
   .text c!",3]*μ_",
   .code c!"i" (9, 37),
   .text c!"_2 + Cd[",
   .code c!"j" (9, 50),
   .text c!",3]*μ_",
   .code c!"i" (9, 61),
   .text c!"_3\n",
   .code c!"endfor" (10, 7),
   .text c!"elif λ_",
   .code c!"i" (11, 10),
   .text c!" > 1:\n",
   .code c!"for j in range(4)" (12, 7),
   .text c!"    ",
   .code c!"phi(i,j)" (13, 7),
   .text c!" = (3*Cd[",
   .code c!"j" (13, 28),
   .text c!",0] + 2*Cd[",
   .code c!"j" (13, 44),
   .text c!",1] + Cd[",
   .code c!"j" (13, 58),
   .text c!",2])*(μ_",
   .code c!"i" (13, 71),
   .text c!"_2-μ_",
   .code c!"i" (13, 81),
   .text c!"_3) + (Cd[",
   .code c!"j" (13, 96),
   .text c!",0]+Cd[",
   .code c!"j" (13, 108),
   .text c!",1]+Cd[",
   .code c!"j" (13, 120),
   .text c!",2]+Cd[",
   .code c!"j" (13, 132),
   .text c!",3])*μ_",
   .code c!"i" (13, 144),
   .text c!"_3\n",
   .code c!"endfor" (14, 7),
   .text c!"else:\n",
   .code c!"for j in range(4)" (16, 7),
   .text c!"    ",
   .code c!"phi(i,j)" (17, 7),
   .text c!" = (Cd[",
   .code c!"j" (17, 26),
   .text c!",0]*μ_",
   .code c!"i" (17, 37),
   .text c!"_0 + Cd[",
   .code c!"j" (17, 50),
   .text c!",1]*μ_",
   .code c!"i" (17, 61),
   .text c!"_1 + Cd[",
   .code c!"j" (17, 74),
   .text c!",2]*μ_",
   .code c!"i" (17, 85),
   .text c!"_2 + Cd[",
   .code c!"j" (17, 98),
   .text c!",3]*μ_",
   .code c!"i" (17, 109),
   .text c!"_3)\n",
   .code c!"endfor" (18, 7),
   .text []]

/-- Part 0 of the parsed `blendHead1 ++ blendTail`. -/
def blendB0 : Node :=
  .text c!"\nμ_"

/-- Part 1 of the parsed `blendHead1 ++ blendTail`. -/
def blendB1 : Node :=
  .expr (2, 5) c!"i"

/-- Part 2 of the parsed `blendHead1 ++ blendTail`. -/
def blendB2 : Node :=
  .text c!"_0 = 3*λ_"

/-- Part 3 of the parsed `blendHead1 ++ blendTail`. -/
def blendB3 : Node :=
  .expr (2, 19) c!"i"

/-- Part 4 of the parsed `blendHead1 ++ blendTail`. -/
def blendB4 : Node :=
  .text c!"*λ_"

/-- Part 5 of the parsed `blendHead1 ++ blendTail`. -/
def blendB5 : Node :=
  .expr (2, 27) c!"i"

/-- Part 6 of the parsed `blendHead1 ++ blendTail`. -/
def blendB6 : Node :=
  .text c!"*δ_"

/-- Part 7 of the parsed `blendHead1 ++ blendTail`. -/
def blendB7 : Node :=
  .expr (2, 35) c!"i"

/-- Part 8 of the parsed `blendHead1 ++ blendTail`. -/
def blendB8 : Node :=
  .text c!";  μ_"

/-- Part 9 of the parsed `blendHead1 ++ blendTail`. -/
def blendB9 : Node :=
  .expr (2, 45) c!"i"

/-- Part 10 of the parsed `blendHead1 ++ blendTail`. -/
def blendB10 : Node :=
  .text c!"_1 = 2*λ_"

/-- Part 11 of the parsed `blendHead1 ++ blendTail`. -/
def blendB11 : Node :=
  .expr (2, 59) c!"i"

/-- Part 12 of the parsed `blendHead1 ++ blendTail`. -/
def blendB12 : Node :=
  .text c!"*δ_"

/-- Part 13 of the parsed `blendHead1 ++ blendTail`. -/
def blendB13 : Node :=
  .expr (2, 67) c!"i"

/-- Part 14 of the parsed `blendHead1 ++ blendTail`. -/
def blendB14 : Node :=
  .text c!";  μ_"

/-- Part 15 of the parsed `blendHead1 ++ blendTail`. -/
def blendB15 : Node :=
  .expr (2, 77) c!"i"

/-- Part 16 of the parsed `blendHead1 ++ blendTail`. -/
def blendB16 : Node :=
  .text c!"_2 = δ_"

/-- Part 17 of the parsed `blendHead1 ++ blendTail`. -/
def blendB17 : Node :=
  .expr (2, 89) c!"i"

/-- Part 18 of the parsed `blendHead1 ++ blendTail`. -/
def blendB18 : Node :=
  .text c!";  μ_"

/-- Part 19 of the parsed `blendHead1 ++ blendTail`. -/
def blendB19 : Node :=
  .expr (2, 99) c!"i"

/-- Part 20 of the parsed `blendHead1 ++ blendTail`. -/
def blendB20 : Node :=
  .text c!"_3 = 0.0;\n"

/-- Part 21 of the parsed `blendHead1 ++ blendTail`. -/
def blendB21 : Node :=
  .forIn (4, 3) [c!"j"] c!"range(4)" <|
    .cons (.text []) <|
    .cons (.expr (5, 3) c!"phi(i,j)") <|
    .cons (.text c!"= 0.0\n") <|
    .nil

/-- Part 22 of the parsed `blendHead1 ++ blendTail`. -/
def blendB22 : Node :=
  .text c!"if λ_"

/-- Part 23 of the parsed `blendHead1 ++ blendTail`. -/
def blendB23 : Node :=
  .expr (7, 8) c!"i"

/-- Part 24 of the parsed `blendHead1 ++ blendTail`. -/
def blendB24 : Node :=
  .text c!" < 0:\n"

/-- Part 25 of the parsed `blendHead1 ++ blendTail`. -/
def blendB25 : Node :=
  .forIn (8, 7) [c!"j"] c!"range(4)" <|
    .cons (.text c!"    ") <|
    .cons (.expr (9, 7) c!"phi(i,j)") <|
    .cons (.text c!" = dCd[") <|
    .cons (.expr (9, 26) c!"j") <|
    .cons (.text c!",3]*μ_") <|
    .cons (.expr (9, 37) c!"i") <|
    .cons (.text c!"_2 + Cd[") <|
    .cons (.expr (9, 50) c!"j") <|
    .cons (.text c!",3]*μ_") <|
    .cons (.expr (9, 61) c!"i") <|
    .cons (.text c!"_3\n") <|
    .nil

/-- Part 26 of the parsed `blendHead1 ++ blendTail`. -/
def blendB26 : Node :=
  .text c!"elif λ_"

/-- Part 27 of the parsed `blendHead1 ++ blendTail`. -/
def blendB27 : Node :=
  .expr (11, 10) c!"i"

/-- Part 28 of the parsed `blendHead1 ++ blendTail`. -/
def blendB28 : Node :=
  .text c!" > 1:\n"

/-- Part 29 of the parsed `blendHead1 ++ blendTail`. -/
def blendB29 : Node :=
  .forIn (12, 7) [c!"j"] c!"range(4)" <|
    .cons (.text c!"    ") <|
    .cons (.expr (13, 7) c!"phi(i,j)") <|
    .cons (.text c!" = (3*Cd[") <|
    .cons (.expr (13, 28) c!"j") <|
    .cons (.text c!",0] + 2*Cd[") <|
    .cons (.expr (13, 44) c!"j") <|
    .cons (.text c!",1] + Cd[") <|
    .cons (.expr (13, 58) c!"j") <|
    .cons (.text c!",2])*(μ_") <|
    .cons (.expr (13, 71) c!"i") <|
    .cons (.text c!"_2-μ_") <|
    .cons (.expr (13, 81) c!"i") <|
    .cons (.text c!"_3) + (Cd[") <|
    .cons (.expr (13, 96) c!"j") <|
    .cons (.text c!",0]+Cd[") <|
    .cons (.expr (13, 108) c!"j") <|
    .cons (.text c!",1]+Cd[") <|
    .cons (.expr (13, 120) c!"j") <|
    .cons (.text c!",2]+Cd[") <|
    .cons (.expr (13, 132) c!"j") <|
    .cons (.text c!",3])*μ_") <|
    .cons (.expr (13, 144) c!"i") <|
    .cons (.text c!"_3\n") <|
    .nil

/-- Part 30 of the parsed `blendHead1 ++ blendTail`. -/
def blendB30 : Node :=
  .text c!"else:\n"

/-- Part 31 of the parsed `blendHead1 ++ blendTail`. -/
def blendB31 : Node :=
  .forIn (16, 7) [c!"j"] c!"range(4)" <|
    .cons (.text c!"    ") <|
    .cons (.expr (17, 7) c!"phi(i,j)") <|
    .cons (.text c!" = (Cd[") <|
    .cons (.expr (17, 26) c!"j") <|
    .cons (.text c!",0]*μ_") <|
    .cons (.expr (17, 37) c!"i") <|
    .cons (.text c!"_0 + Cd[") <|
    .cons (.expr (17, 50) c!"j") <|
    .cons (.text c!",1]*μ_") <|
    .cons (.expr (17, 61) c!"i") <|
    .cons (.text c!"_1 + Cd[") <|
    .cons (.expr (17, 74) c!"j") <|
    .cons (.text c!",2]*μ_") <|
    .cons (.expr (17, 85) c!"i") <|
    .cons (.text c!"_2 + Cd[") <|
    .cons (.expr (17, 98) c!"j") <|
    .cons (.text c!",3]*μ_") <|
    .cons (.expr (17, 109) c!"i") <|
    .cons (.text c!"_3)\n") <|
    .nil

/-- Part 32 of the parsed `blendHead1 ++ blendTail`. -/
def blendB32 : Node :=
  .text []

/-- The parsed `blendHead1 ++ blendTail`. -/
def blendBTree : Nodes :=
  .cons blendB0 <|
  .cons blendB1 <|
  .cons blendB2 <|
  .cons blendB3 <|
  .cons blendB4 <|
  .cons blendB5 <|
  .cons blendB6 <|
  .cons blendB7 <|
  .cons blendB8 <|
  .cons blendB9 <|
  .cons blendB10 <|
  .cons blendB11 <|
  .cons blendB12 <|
  .cons blendB13 <|
  .cons blendB14 <|
  .cons blendB15 <|
  .cons blendB16 <|
  .cons blendB17 <|
  .cons blendB18 <|
  .cons blendB19 <|
  .cons blendB20 <|
  .cons blendB21 <|
  .cons blendB22 <|
  .cons blendB23 <|
  .cons blendB24 <|
  .cons blendB25 <|
  .cons blendB26 <|
  .cons blendB27 <|
  .cons blendB28 <|
  .cons blendB29 <|
  .cons blendB30 <|
  .cons blendB31 <|
  .cons blendB32 <|
  .nil

theorem blendB_raw : lexRaw (blendHead1 ++ blendTail) = .ok blendBRaw := by decide +kernel

theorem blendB_trim : trimLex blendBRaw = blendBLex := by decide +kernel

theorem blendB_all : parseAll (depth blendBLex) blendBLex = .ok blendBTree := by decide +kernel

theorem blendB_parse : parse (blendHead1 ++ blendTail) = .ok blendBTree := parse_of blendB_raw blendB_trim blendB_all

end Interp.CodegenText
