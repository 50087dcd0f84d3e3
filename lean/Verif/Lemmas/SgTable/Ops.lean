import Verif.Lemmas.SgTable.Base

/-! Written by tools/gen_sgtable.py. The coordinates and operators that occur in the table. -/

namespace Systre.Sg.Data
set_option maxRecDepth 100000

noncomputable def c0 : Co := ⟨[.axis false 0], chars! "x", r! "24 0 0 0", nat! "119522400", by decide +kernel⟩
noncomputable def c1 : Co := ⟨[.axis false 1], chars! "y", r! "0 24 0 0", nat! "96597600", by decide +kernel⟩
noncomputable def c2 : Co := ⟨[.axis false 2], chars! "z", r! "0 0 24 0", nat! "96482976", by decide +kernel⟩
noncomputable def c3 : Co := ⟨[.axis true 0], chars! "-x", r! "-24 0 0 0", nat! "73442400", by decide +kernel⟩
noncomputable def c4 : Co := ⟨[.axis true 1], chars! "-y", r! "0 -24 0 0", nat! "96367200", by decide +kernel⟩
noncomputable def c5 : Co := ⟨[.axis false 1, .frac false 1 2], chars! "y+1/2", r! "0 24 0 12", nat! "96597612", by decide +kernel⟩
noncomputable def c6 : Co := ⟨[.axis false 0, .frac false 1 2], chars! "x+1/2", r! "24 0 0 12", nat! "119522412", by decide +kernel⟩
noncomputable def c7 : Co := ⟨[.axis true 0, .frac false 1 2], chars! "-x+1/2", r! "-24 0 0 12", nat! "73442412", by decide +kernel⟩
noncomputable def c8 : Co := ⟨[.axis true 1, .frac false 1 2], chars! "-y+1/2", r! "0 -24 0 12", nat! "96367212", by decide +kernel⟩
noncomputable def c9 : Co := ⟨[.axis false 0, .axis true 1], chars! "x-y", r! "24 -24 0 0", nat! "119407200", by decide +kernel⟩
noncomputable def c10 : Co := ⟨[.axis true 0, .axis false 1], chars! "-x+y", r! "-24 24 0 0", nat! "73557600", by decide +kernel⟩
noncomputable def c11 : Co := ⟨[.axis true 2], chars! "-z", r! "0 0 -24 0", nat! "96481824", by decide +kernel⟩
noncomputable def c12 : Co := ⟨[.axis false 2, .frac false 1 2], chars! "z+1/2", r! "0 0 24 12", nat! "96482988", by decide +kernel⟩
noncomputable def c13 : Co := ⟨[.axis true 2, .frac false 1 2], chars! "-z+1/2", r! "0 0 -24 12", nat! "96481836", by decide +kernel⟩
noncomputable def c14 : Co := ⟨[.axis false 0, .axis false 2], chars! "x+z", r! "24 0 24 0", nat! "119522976", by decide +kernel⟩
noncomputable def c15 : Co := ⟨[.axis false 0, .axis false 1], chars! "x+y", r! "24 24 0 0", nat! "119637600", by decide +kernel⟩
noncomputable def c16 : Co := ⟨[.axis false 1, .axis false 2], chars! "y+z", r! "0 24 24 0", nat! "96598176", by decide +kernel⟩
noncomputable def c17 : Co := ⟨[.axis false 0, .axis true 2], chars! "x-z", r! "24 0 -24 0", nat! "119521824", by decide +kernel⟩
noncomputable def c18 : Co := ⟨[.axis true 1, .int false 1], chars! "-y+1", r! "0 -24 0 24", nat! "96367200", by decide +kernel⟩
noncomputable def c19 : Co := ⟨[.axis false 0, .int false 1], chars! "x+1", r! "24 0 0 24", nat! "119522400", by decide +kernel⟩
noncomputable def c20 : Co := ⟨[.axis false 0, .frac true 1 4], chars! "x-1/4", r! "24 0 0 -6", nat! "119522418", by decide +kernel⟩
noncomputable def c21 : Co := ⟨[.axis false 1, .frac true 1 4], chars! "y-1/4", r! "0 24 0 -6", nat! "96597618", by decide +kernel⟩
noncomputable def c22 : Co := ⟨[.axis false 2, .int false 1], chars! "z+1", r! "0 0 24 24", nat! "96482976", by decide +kernel⟩
noncomputable def c23 : Co := ⟨[.axis false 1, .int false 1], chars! "y+1", r! "0 24 0 24", nat! "96597600", by decide +kernel⟩
noncomputable def c24 : Co := ⟨[.axis true 1, .axis false 2], chars! "-y+z", r! "0 -24 24 0", nat! "96367776", by decide +kernel⟩
noncomputable def c25 : Co := ⟨[.axis true 0, .int false 1], chars! "-x+1", r! "-24 0 0 24", nat! "73442400", by decide +kernel⟩
noncomputable def c26 : Co := ⟨[.axis true 1, .frac true 1 2], chars! "-y-1/2", r! "0 -24 0 -12", nat! "96367212", by decide +kernel⟩
noncomputable def c27 : Co := ⟨[.axis true 2, .frac true 1 2], chars! "-z-1/2", r! "0 0 -24 -12", nat! "96481836", by decide +kernel⟩
noncomputable def c28 : Co := ⟨[.axis true 0, .frac true 1 2], chars! "-x-1/2", r! "-24 0 0 -12", nat! "73442412", by decide +kernel⟩
noncomputable def c29 : Co := ⟨[.axis false 2, .frac true 1 2], chars! "z-1/2", r! "0 0 24 -12", nat! "96482988", by decide +kernel⟩
noncomputable def c30 : Co := ⟨[.axis false 0, .frac true 1 2], chars! "x-1/2", r! "24 0 0 -12", nat! "119522412", by decide +kernel⟩
noncomputable def c31 : Co := ⟨[.axis false 1, .frac true 1 2], chars! "y-1/2", r! "0 24 0 -12", nat! "96597612", by decide +kernel⟩
noncomputable def c32 : Co := ⟨[.axis false 1, .frac false 1 4], chars! "y+1/4", r! "0 24 0 6", nat! "96597606", by decide +kernel⟩
noncomputable def c33 : Co := ⟨[.axis true 2, .int false 1], chars! "-z+1", r! "0 0 -24 24", nat! "96481824", by decide +kernel⟩
noncomputable def c34 : Co := ⟨[.axis true 0, .frac false 1 4], chars! "-x+1/4", r! "-24 0 0 6", nat! "73442406", by decide +kernel⟩
noncomputable def c35 : Co := ⟨[.axis false 2, .frac false 1 4], chars! "z+1/4", r! "0 0 24 6", nat! "96482982", by decide +kernel⟩
noncomputable def c36 : Co := ⟨[.axis false 0, .frac false 3 4], chars! "x+3/4", r! "24 0 0 18", nat! "119522418", by decide +kernel⟩
noncomputable def c37 : Co := ⟨[.axis true 1, .frac false 3 4], chars! "-y+3/4", r! "0 -24 0 18", nat! "96367218", by decide +kernel⟩
noncomputable def c38 : Co := ⟨[.axis false 1, .frac false 3 4], chars! "y+3/4", r! "0 24 0 18", nat! "96597618", by decide +kernel⟩
noncomputable def c39 : Co := ⟨[.axis false 2, .frac false 3 4], chars! "z+3/4", r! "0 0 24 18", nat! "96482994", by decide +kernel⟩
noncomputable def c40 : Co := ⟨[.axis true 1, .frac false 5 4], chars! "-y+5/4", r! "0 -24 0 30", nat! "96367206", by decide +kernel⟩
noncomputable def c41 : Co := ⟨[.axis true 0, .frac false 3 4], chars! "-x+3/4", r! "-24 0 0 18", nat! "73442418", by decide +kernel⟩
noncomputable def c42 : Co := ⟨[.axis false 0, .frac false 5 4], chars! "x+5/4", r! "24 0 0 30", nat! "119522406", by decide +kernel⟩
noncomputable def c43 : Co := ⟨[.axis false 0, .frac false 1 4], chars! "x+1/4", r! "24 0 0 6", nat! "119522406", by decide +kernel⟩
noncomputable def c44 : Co := ⟨[.axis true 2, .frac false 1 4], chars! "-z+1/4", r! "0 0 -24 6", nat! "96481830", by decide +kernel⟩
noncomputable def c45 : Co := ⟨[.axis true 1, .frac false 1 4], chars! "-y+1/4", r! "0 -24 0 6", nat! "96367206", by decide +kernel⟩
noncomputable def c46 : Co := ⟨[.axis true 2, .frac false 3 4], chars! "-z+3/4", r! "0 0 -24 18", nat! "96481842", by decide +kernel⟩
noncomputable def c47 : Co := ⟨[.axis false 2, .frac true 1 4], chars! "z-1/4", r! "0 0 24 -6", nat! "96482994", by decide +kernel⟩
noncomputable def c48 : Co := ⟨[.axis false 0, .frac true 1 8], chars! "x-1/8", r! "24 0 0 -3", nat! "119522421", by decide +kernel⟩
noncomputable def c49 : Co := ⟨[.axis false 1, .frac true 1 8], chars! "y-1/8", r! "0 24 0 -3", nat! "96597621", by decide +kernel⟩
noncomputable def c50 : Co := ⟨[.axis false 2, .frac true 1 8], chars! "z-1/8", r! "0 0 24 -3", nat! "96482997", by decide +kernel⟩
noncomputable def c51 : Co := ⟨[.axis false 2, .frac false 5 4], chars! "z+5/4", r! "0 0 24 30", nat! "96482982", by decide +kernel⟩
noncomputable def c52 : Co := ⟨[.axis false 1, .frac true 3 4], chars! "y-3/4", r! "0 24 0 -18", nat! "96597606", by decide +kernel⟩
noncomputable def c53 : Co := ⟨[.axis true 0, .frac true 1 4], chars! "-x-1/4", r! "-24 0 0 -6", nat! "73442418", by decide +kernel⟩
noncomputable def c54 : Co := ⟨[.axis true 2, .frac true 1 4], chars! "-z-1/4", r! "0 0 -24 -6", nat! "96481842", by decide +kernel⟩
noncomputable def c55 : Co := ⟨[.axis true 1, .frac true 3 4], chars! "-y-3/4", r! "0 -24 0 -18", nat! "96367206", by decide +kernel⟩
noncomputable def c56 : Co := ⟨[.axis false 0, .frac true 3 4], chars! "x-3/4", r! "24 0 0 -18", nat! "119522406", by decide +kernel⟩
noncomputable def c57 : Co := ⟨[.axis true 2, .frac true 3 4], chars! "-z-3/4", r! "0 0 -24 -18", nat! "96481830", by decide +kernel⟩
noncomputable def c58 : Co := ⟨[.axis false 1, .frac false 5 4], chars! "y+5/4", r! "0 24 0 30", nat! "96597606", by decide +kernel⟩
noncomputable def c59 : Co := ⟨[.axis true 0, .frac false 5 4], chars! "-x+5/4", r! "-24 0 0 30", nat! "73442406", by decide +kernel⟩
noncomputable def c60 : Co := ⟨[.axis true 1, .frac true 1 4], chars! "-y-1/4", r! "0 -24 0 -6", nat! "96367218", by decide +kernel⟩
noncomputable def c61 : Co := ⟨[.axis true 2, .frac false 5 4], chars! "-z+5/4", r! "0 0 -24 30", nat! "96481830", by decide +kernel⟩
noncomputable def c62 : Co := ⟨[.axis true 0, .frac true 3 4], chars! "-x-3/4", r! "-24 0 0 -18", nat! "73442406", by decide +kernel⟩
noncomputable def c63 : Co := ⟨[.axis false 2, .frac true 3 4], chars! "z-3/4", r! "0 0 24 -18", nat! "96482982", by decide +kernel⟩
noncomputable def c64 : Co := ⟨[.axis false 2, .frac false 3 8], chars! "z+3/8", r! "0 0 24 9", nat! "96482985", by decide +kernel⟩
noncomputable def c65 : Co := ⟨[.axis false 2, .frac false 1 3], chars! "z+1/3", r! "0 0 24 8", nat! "96482984", by decide +kernel⟩
noncomputable def c66 : Co := ⟨[.axis false 2, .frac false 2 3], chars! "z+2/3", r! "0 0 24 16", nat! "96482992", by decide +kernel⟩
noncomputable def c67 : Co := ⟨[.axis false 0, .frac false 2 3], chars! "x+2/3", r! "24 0 0 16", nat! "119522416", by decide +kernel⟩
noncomputable def c68 : Co := ⟨[.axis false 1, .frac false 1 3], chars! "y+1/3", r! "0 24 0 8", nat! "96597608", by decide +kernel⟩
noncomputable def c69 : Co := ⟨[.axis true 1, .frac false 2 3], chars! "-y+2/3", r! "0 -24 0 16", nat! "96367216", by decide +kernel⟩
noncomputable def c70 : Co := ⟨[.axis false 0, .axis true 1, .frac false 1 3], chars! "x-y+1/3", r! "24 -24 0 8", nat! "119407208", by decide +kernel⟩
noncomputable def c71 : Co := ⟨[.axis true 0, .axis false 1, .frac false 2 3], chars! "-x+y+2/3", r! "-24 24 0 16", nat! "73557616", by decide +kernel⟩
noncomputable def c72 : Co := ⟨[.axis true 0, .frac false 1 3], chars! "-x+1/3", r! "-24 0 0 8", nat! "73442408", by decide +kernel⟩
noncomputable def c73 : Co := ⟨[.axis false 0, .frac false 1 3], chars! "x+1/3", r! "24 0 0 8", nat! "119522408", by decide +kernel⟩
noncomputable def c74 : Co := ⟨[.axis false 1, .frac false 2 3], chars! "y+2/3", r! "0 24 0 16", nat! "96597616", by decide +kernel⟩
noncomputable def c75 : Co := ⟨[.axis true 1, .frac false 1 3], chars! "-y+1/3", r! "0 -24 0 8", nat! "96367208", by decide +kernel⟩
noncomputable def c76 : Co := ⟨[.axis false 0, .axis true 1, .frac false 2 3], chars! "x-y+2/3", r! "24 -24 0 16", nat! "119407216", by decide +kernel⟩
noncomputable def c77 : Co := ⟨[.axis true 0, .axis false 1, .frac false 1 3], chars! "-x+y+1/3", r! "-24 24 0 8", nat! "73557608", by decide +kernel⟩
noncomputable def c78 : Co := ⟨[.axis true 0, .frac false 2 3], chars! "-x+2/3", r! "-24 0 0 16", nat! "73442416", by decide +kernel⟩
noncomputable def c79 : Co := ⟨[.times true 1 3 0, .times false 2 3 1, .times true 1 3 2], chars! "-1/3*x+2/3*y-1/3*z", r! "-8 16 -8 0", nat! "88879008", by decide +kernel⟩
noncomputable def c80 : Co := ⟨[.times true 2 3 0, .times false 1 3 1, .times false 1 3 2], chars! "-2/3*x+1/3*y+1/3*z", r! "-16 8 8 0", nat! "81160992", by decide +kernel⟩
noncomputable def c81 : Co := ⟨[.times false 1 3 0, .times false 1 3 1, .times false 1 3 2], chars! "1/3*x+1/3*y+1/3*z", r! "8 8 8 0", nat! "104200992", by decide +kernel⟩
noncomputable def c82 : Co := ⟨[.axis true 2, .frac false 1 3], chars! "-z+1/3", r! "0 0 -24 8", nat! "96481832", by decide +kernel⟩
noncomputable def c83 : Co := ⟨[.axis true 2, .frac false 2 3], chars! "-z+2/3", r! "0 0 -24 16", nat! "96481840", by decide +kernel⟩
noncomputable def c84 : Co := ⟨[.axis false 2, .frac false 5 6], chars! "z+5/6", r! "0 0 24 20", nat! "96482996", by decide +kernel⟩
noncomputable def c85 : Co := ⟨[.axis false 2, .frac false 7 6], chars! "z+7/6", r! "0 0 24 28", nat! "96482980", by decide +kernel⟩
noncomputable def c86 : Co := ⟨[.axis true 2, .frac false 5 6], chars! "-z+5/6", r! "0 0 -24 20", nat! "96481844", by decide +kernel⟩
noncomputable def c87 : Co := ⟨[.axis false 2, .frac true 1 6], chars! "z-1/6", r! "0 0 24 -4", nat! "96482996", by decide +kernel⟩
noncomputable def c88 : Co := ⟨[.axis true 2, .frac false 7 6], chars! "-z+7/6", r! "0 0 -24 28", nat! "96481828", by decide +kernel⟩
noncomputable def c89 : Co := ⟨[.axis false 2, .frac false 1 6], chars! "z+1/6", r! "0 0 24 4", nat! "96482980", by decide +kernel⟩
noncomputable def c90 : Co := ⟨[.axis true 2, .frac false 1 6], chars! "-z+1/6", r! "0 0 -24 4", nat! "96481828", by decide +kernel⟩
noncomputable def c91 : Co := ⟨[.axis false 0, .frac false 1 8], chars! "x+1/8", r! "24 0 0 3", nat! "119522403", by decide +kernel⟩
noncomputable def c92 : Co := ⟨[.axis false 1, .frac false 1 8], chars! "y+1/8", r! "0 24 0 3", nat! "96597603", by decide +kernel⟩
noncomputable def c93 : Co := ⟨[.axis false 2, .frac false 1 8], chars! "z+1/8", r! "0 0 24 3", nat! "96482979", by decide +kernel⟩
noncomputable def c94 : Co := ⟨[.axis false 2, .frac true 1 3], chars! "z-1/3", r! "0 0 24 -8", nat! "96482992", by decide +kernel⟩
noncomputable def c95 : Co := ⟨[.axis false 2, .frac true 1 12], chars! "z-1/12", r! "0 0 24 -2", nat! "96482998", by decide +kernel⟩
noncomputable def c96 : Co := ⟨[.axis false 2, .frac true 5 12], chars! "z-5/12", r! "0 0 24 -10", nat! "96482990", by decide +kernel⟩
noncomputable def c97 : Co := ⟨[.axis true 2, .frac false 1 8], chars! "-z+1/8", r! "0 0 -24 3", nat! "96481827", by decide +kernel⟩
noncomputable def c98 : Co := ⟨[.axis false 2, .frac true 3 8], chars! "z-3/8", r! "0 0 24 -9", nat! "96482991", by decide +kernel⟩
noncomputable def c99 : Co := ⟨[.axis false 1, .frac true 3 8], chars! "y-3/8", r! "0 24 0 -9", nat! "96597615", by decide +kernel⟩
noncomputable def t0 : Tr := ⟨c0, c1, c2⟩
noncomputable def t1 : Tr := ⟨c3, c1, c2⟩
noncomputable def t2 : Tr := ⟨c3, c4, c2⟩
noncomputable def t3 : Tr := ⟨c3, c5, c2⟩
noncomputable def t4 : Tr := ⟨c6, c5, c2⟩
noncomputable def t5 : Tr := ⟨c7, c5, c2⟩
noncomputable def t6 : Tr := ⟨c0, c4, c2⟩
noncomputable def t7 : Tr := ⟨c7, c1, c2⟩
noncomputable def t8 : Tr := ⟨c6, c4, c2⟩
noncomputable def t9 : Tr := ⟨c6, c8, c2⟩
noncomputable def t10 : Tr := ⟨c7, c8, c2⟩
noncomputable def t11 : Tr := ⟨c4, c0, c2⟩
noncomputable def t12 : Tr := ⟨c1, c3, c2⟩
noncomputable def t13 : Tr := ⟨c1, c0, c2⟩
noncomputable def t14 : Tr := ⟨c4, c3, c2⟩
noncomputable def t15 : Tr := ⟨c5, c6, c2⟩
noncomputable def t16 : Tr := ⟨c8, c7, c2⟩
noncomputable def t17 : Tr := ⟨c4, c9, c2⟩
noncomputable def t18 : Tr := ⟨c10, c3, c2⟩
noncomputable def t19 : Tr := ⟨c10, c1, c2⟩
noncomputable def t20 : Tr := ⟨c0, c9, c2⟩
noncomputable def t21 : Tr := ⟨c9, c4, c2⟩
noncomputable def t22 : Tr := ⟨c3, c10, c2⟩
noncomputable def t23 : Tr := ⟨c1, c10, c2⟩
noncomputable def t24 : Tr := ⟨c9, c0, c2⟩
noncomputable def t25 : Tr := ⟨c3, c4, c11⟩
noncomputable def t26 : Tr := ⟨c3, c1, c11⟩
noncomputable def t27 : Tr := ⟨c1, c2, c0⟩
noncomputable def t28 : Tr := ⟨c2, c0, c1⟩
noncomputable def t29 : Tr := ⟨c0, c4, c11⟩
noncomputable def t30 : Tr := ⟨c3, c5, c11⟩
noncomputable def t31 : Tr := ⟨c3, c4, c12⟩
noncomputable def t32 : Tr := ⟨c6, c4, c11⟩
noncomputable def t33 : Tr := ⟨c7, c5, c11⟩
noncomputable def t34 : Tr := ⟨c11, c1, c0⟩
noncomputable def t35 : Tr := ⟨c0, c5, c12⟩
noncomputable def t36 : Tr := ⟨c3, c5, c13⟩
noncomputable def t37 : Tr := ⟨c0, c1, c14⟩
noncomputable def t38 : Tr := ⟨c6, c5, c12⟩
noncomputable def t39 : Tr := ⟨c7, c5, c13⟩
noncomputable def t40 : Tr := ⟨c3, c8, c12⟩
noncomputable def t41 : Tr := ⟨c3, c2, c1⟩
noncomputable def t42 : Tr := ⟨c6, c1, c12⟩
noncomputable def t43 : Tr := ⟨c7, c4, c12⟩
noncomputable def t44 : Tr := ⟨c1, c2, c15⟩
noncomputable def t45 : Tr := ⟨c7, c8, c12⟩
noncomputable def t46 : Tr := ⟨c6, c4, c13⟩
noncomputable def t47 : Tr := ⟨c6, c8, c11⟩
noncomputable def t48 : Tr := ⟨c2, c0, c16⟩
noncomputable def t49 : Tr := ⟨c6, c8, c13⟩
noncomputable def t50 : Tr := ⟨c0, c1, c11⟩
noncomputable def t51 : Tr := ⟨c0, c4, c12⟩
noncomputable def t52 : Tr := ⟨c14, c1, c2⟩
noncomputable def t53 : Tr := ⟨c6, c4, c12⟩
noncomputable def t54 : Tr := ⟨c6, c1, c11⟩
noncomputable def t55 : Tr := ⟨c15, c2, c0⟩
noncomputable def t56 : Tr := ⟨c6, c5, c11⟩
noncomputable def t57 : Tr := ⟨c0, c5, c11⟩
noncomputable def t58 : Tr := ⟨c16, c0, c1⟩
noncomputable def t59 : Tr := ⟨c3, c5, c12⟩
noncomputable def t60 : Tr := ⟨c3, c1, c12⟩
noncomputable def t61 : Tr := ⟨c0, c8, c12⟩
noncomputable def t62 : Tr := ⟨c6, c8, c12⟩
noncomputable def t63 : Tr := ⟨c0, c5, c13⟩
noncomputable def t64 : Tr := ⟨c6, c1, c13⟩
noncomputable def t65 : Tr := ⟨c6, c5, c13⟩
noncomputable def t66 : Tr := ⟨c7, c1, c12⟩
noncomputable def t67 : Tr := ⟨c7, c5, c12⟩
noncomputable def t68 : Tr := ⟨c17, c1, c0⟩
noncomputable def t69 : Tr := ⟨c6, c18, c12⟩
noncomputable def t70 : Tr := ⟨c11, c1, c14⟩
noncomputable def t71 : Tr := ⟨c19, c8, c12⟩
noncomputable def t72 : Tr := ⟨c20, c21, c2⟩
noncomputable def t73 : Tr := ⟨c6, c8, c22⟩
noncomputable def t74 : Tr := ⟨c10, c2, c1⟩
noncomputable def t75 : Tr := ⟨c19, c5, c13⟩
noncomputable def t76 : Tr := ⟨c3, c2, c15⟩
noncomputable def t77 : Tr := ⟨c6, c23, c13⟩
noncomputable def t78 : Tr := ⟨c24, c0, c2⟩
noncomputable def t79 : Tr := ⟨c25, c5, c12⟩
noncomputable def t80 : Tr := ⟨c4, c0, c16⟩
noncomputable def t81 : Tr := ⟨c7, c5, c22⟩
noncomputable def t82 : Tr := ⟨c7, c23, c12⟩
noncomputable def t83 : Tr := ⟨c0, c26, c2⟩
noncomputable def t84 : Tr := ⟨c0, c1, c27⟩
noncomputable def t85 : Tr := ⟨c28, c1, c2⟩
noncomputable def t86 : Tr := ⟨c7, c8, c11⟩
noncomputable def t87 : Tr := ⟨c3, c8, c13⟩
noncomputable def t88 : Tr := ⟨c7, c8, c13⟩
noncomputable def t89 : Tr := ⟨c7, c4, c13⟩
noncomputable def t90 : Tr := ⟨c3, c1, c13⟩
noncomputable def t91 : Tr := ⟨c0, c4, c29⟩
noncomputable def t92 : Tr := ⟨c7, c1, c13⟩
noncomputable def t93 : Tr := ⟨c30, c4, c29⟩
noncomputable def t94 : Tr := ⟨c7, c1, c11⟩
noncomputable def t95 : Tr := ⟨c30, c4, c2⟩
noncomputable def t96 : Tr := ⟨c7, c4, c2⟩
noncomputable def t97 : Tr := ⟨c30, c1, c11⟩
noncomputable def t98 : Tr := ⟨c30, c31, c11⟩
noncomputable def t99 : Tr := ⟨c3, c8, c2⟩
noncomputable def t100 : Tr := ⟨c0, c31, c11⟩
noncomputable def t101 : Tr := ⟨c0, c8, c11⟩
noncomputable def t102 : Tr := ⟨c3, c31, c2⟩
noncomputable def t103 : Tr := ⟨c0, c8, c13⟩
noncomputable def t104 : Tr := ⟨c3, c31, c29⟩
noncomputable def t105 : Tr := ⟨c0, c4, c13⟩
noncomputable def t106 : Tr := ⟨c3, c1, c29⟩
noncomputable def t107 : Tr := ⟨c0, c26, c29⟩
noncomputable def t108 : Tr := ⟨c30, c26, c29⟩
noncomputable def t109 : Tr := ⟨c30, c26, c2⟩
noncomputable def t110 : Tr := ⟨c30, c1, c27⟩
noncomputable def t111 : Tr := ⟨c30, c31, c27⟩
noncomputable def t112 : Tr := ⟨c0, c31, c27⟩
noncomputable def t113 : Tr := ⟨c28, c31, c2⟩
noncomputable def t114 : Tr := ⟨c28, c31, c29⟩
noncomputable def t115 : Tr := ⟨c28, c1, c29⟩
noncomputable def t116 : Tr := ⟨c6, c8, c29⟩
noncomputable def t117 : Tr := ⟨c7, c23, c13⟩
noncomputable def t118 : Tr := ⟨c30, c4, c12⟩
noncomputable def t119 : Tr := ⟨c25, c5, c13⟩
noncomputable def t120 : Tr := ⟨c30, c8, c12⟩
noncomputable def t121 : Tr := ⟨c20, c32, c2⟩
noncomputable def t122 : Tr := ⟨c0, c8, c29⟩
noncomputable def t123 : Tr := ⟨c7, c5, c33⟩
noncomputable def t124 : Tr := ⟨c30, c5, c13⟩
noncomputable def t125 : Tr := ⟨c25, c8, c12⟩
noncomputable def t126 : Tr := ⟨c0, c31, c13⟩
noncomputable def t127 : Tr := ⟨c7, c18, c12⟩
noncomputable def t128 : Tr := ⟨c6, c31, c13⟩
noncomputable def t129 : Tr := ⟨c30, c1, c13⟩
noncomputable def t130 : Tr := ⟨c7, c31, c12⟩
noncomputable def t131 : Tr := ⟨c19, c8, c13⟩
noncomputable def t132 : Tr := ⟨c3, c5, c29⟩
noncomputable def t133 : Tr := ⟨c6, c8, c33⟩
noncomputable def t134 : Tr := ⟨c7, c5, c29⟩
noncomputable def t135 : Tr := ⟨c3, c31, c12⟩
noncomputable def t136 : Tr := ⟨c6, c18, c13⟩
noncomputable def t137 : Tr := ⟨c7, c23, c33⟩
noncomputable def t138 : Tr := ⟨c0, c8, c2⟩
noncomputable def t139 : Tr := ⟨c0, c1, c13⟩
noncomputable def t140 : Tr := ⟨c3, c23, c12⟩
noncomputable def t141 : Tr := ⟨c0, c18, c12⟩
noncomputable def t142 : Tr := ⟨c25, c1, c12⟩
noncomputable def t143 : Tr := ⟨c19, c4, c12⟩
noncomputable def t144 : Tr := ⟨c19, c1, c13⟩
noncomputable def t145 : Tr := ⟨c19, c5, c11⟩
noncomputable def t146 : Tr := ⟨c19, c8, c2⟩
noncomputable def t147 : Tr := ⟨c25, c5, c2⟩
noncomputable def t148 : Tr := ⟨c0, c23, c13⟩
noncomputable def t149 : Tr := ⟨c34, c32, c35⟩
noncomputable def t150 : Tr := ⟨c36, c37, c35⟩
noncomputable def t151 : Tr := ⟨c34, c38, c39⟩
noncomputable def t152 : Tr := ⟨c36, c40, c39⟩
noncomputable def t153 : Tr := ⟨c41, c32, c39⟩
noncomputable def t154 : Tr := ⟨c42, c37, c39⟩
noncomputable def t155 : Tr := ⟨c41, c38, c35⟩
noncomputable def t156 : Tr := ⟨c42, c40, c35⟩
noncomputable def t157 : Tr := ⟨c43, c32, c44⟩
noncomputable def t158 : Tr := ⟨c43, c45, c35⟩
noncomputable def t159 : Tr := ⟨c43, c38, c46⟩
noncomputable def t160 : Tr := ⟨c43, c37, c39⟩
noncomputable def t161 : Tr := ⟨c36, c32, c46⟩
noncomputable def t162 : Tr := ⟨c36, c45, c39⟩
noncomputable def t163 : Tr := ⟨c36, c38, c44⟩
noncomputable def t164 : Tr := ⟨c25, c23, c11⟩
noncomputable def t165 : Tr := ⟨c6, c5, c33⟩
noncomputable def t166 : Tr := ⟨c43, c32, c35⟩
noncomputable def t167 : Tr := ⟨c43, c32, c2⟩
noncomputable def t168 : Tr := ⟨c32, c35, c0⟩
noncomputable def t169 : Tr := ⟨c35, c43, c1⟩
noncomputable def t170 : Tr := ⟨c6, c5, c27⟩
noncomputable def t171 : Tr := ⟨c28, c5, c12⟩
noncomputable def t172 : Tr := ⟨c6, c26, c12⟩
noncomputable def t173 : Tr := ⟨c0, c5, c27⟩
noncomputable def t174 : Tr := ⟨c28, c1, c12⟩
noncomputable def t175 : Tr := ⟨c0, c26, c12⟩
noncomputable def t176 : Tr := ⟨c25, c8, c2⟩
noncomputable def t177 : Tr := ⟨c25, c5, c11⟩
noncomputable def t178 : Tr := ⟨c19, c8, c11⟩
noncomputable def t179 : Tr := ⟨c3, c18, c12⟩
noncomputable def t180 : Tr := ⟨c0, c18, c13⟩
noncomputable def t181 : Tr := ⟨c3, c23, c13⟩
noncomputable def t182 : Tr := ⟨c19, c4, c13⟩
noncomputable def t183 : Tr := ⟨c25, c1, c13⟩
noncomputable def t184 : Tr := ⟨c25, c4, c12⟩
noncomputable def t185 : Tr := ⟨c6, c32, c47⟩
noncomputable def t186 : Tr := ⟨c25, c8, c13⟩
noncomputable def t187 : Tr := ⟨c5, c35, c20⟩
noncomputable def t188 : Tr := ⟨c7, c18, c13⟩
noncomputable def t189 : Tr := ⟨c12, c43, c21⟩
noncomputable def t190 : Tr := ⟨c34, c45, c2⟩
noncomputable def t191 : Tr := ⟨c0, c45, c44⟩
noncomputable def t192 : Tr := ⟨c34, c1, c44⟩
noncomputable def t193 : Tr := ⟨c20, c21, c11⟩
noncomputable def t194 : Tr := ⟨c3, c21, c47⟩
noncomputable def t195 : Tr := ⟨c20, c4, c47⟩
noncomputable def t196 : Tr := ⟨c34, c37, c12⟩
noncomputable def t197 : Tr := ⟨c0, c37, c46⟩
noncomputable def t198 : Tr := ⟨c34, c5, c46⟩
noncomputable def t199 : Tr := ⟨c20, c32, c13⟩
noncomputable def t200 : Tr := ⟨c3, c32, c35⟩
noncomputable def t201 : Tr := ⟨c20, c8, c35⟩
noncomputable def t202 : Tr := ⟨c41, c45, c12⟩
noncomputable def t203 : Tr := ⟨c6, c45, c46⟩
noncomputable def t204 : Tr := ⟨c41, c1, c46⟩
noncomputable def t205 : Tr := ⟨c43, c21, c13⟩
noncomputable def t206 : Tr := ⟨c7, c21, c35⟩
noncomputable def t207 : Tr := ⟨c43, c4, c35⟩
noncomputable def t208 : Tr := ⟨c41, c37, c2⟩
noncomputable def t209 : Tr := ⟨c6, c37, c44⟩
noncomputable def t210 : Tr := ⟨c41, c5, c44⟩
noncomputable def t211 : Tr := ⟨c43, c32, c11⟩
noncomputable def t212 : Tr := ⟨c7, c32, c47⟩
noncomputable def t213 : Tr := ⟨c43, c8, c47⟩
noncomputable def t214 : Tr := ⟨c48, c49, c50⟩
noncomputable def t215 : Tr := ⟨c34, c45, c44⟩
noncomputable def t216 : Tr := ⟨c34, c37, c46⟩
noncomputable def t217 : Tr := ⟨c41, c45, c46⟩
noncomputable def t218 : Tr := ⟨c41, c37, c44⟩
noncomputable def t219 : Tr := ⟨c20, c32, c47⟩
noncomputable def t220 : Tr := ⟨c25, c23, c13⟩
noncomputable def t221 : Tr := ⟨c7, c8, c22⟩
noncomputable def t222 : Tr := ⟨c4, c0, c35⟩
noncomputable def t223 : Tr := ⟨c1, c3, c39⟩
noncomputable def t224 : Tr := ⟨c4, c0, c12⟩
noncomputable def t225 : Tr := ⟨c1, c3, c12⟩
noncomputable def t226 : Tr := ⟨c4, c0, c39⟩
noncomputable def t227 : Tr := ⟨c1, c3, c35⟩
noncomputable def t228 : Tr := ⟨c8, c6, c12⟩
noncomputable def t229 : Tr := ⟨c5, c7, c12⟩
noncomputable def t230 : Tr := ⟨c4, c6, c35⟩
noncomputable def t231 : Tr := ⟨c5, c3, c39⟩
noncomputable def t232 : Tr := ⟨c8, c19, c39⟩
noncomputable def t233 : Tr := ⟨c25, c18, c22⟩
noncomputable def t234 : Tr := ⟨c23, c7, c51⟩
noncomputable def t235 : Tr := ⟨c1, c3, c11⟩
noncomputable def t236 : Tr := ⟨c4, c0, c11⟩
noncomputable def t237 : Tr := ⟨c5, c7, c13⟩
noncomputable def t238 : Tr := ⟨c8, c6, c13⟩
noncomputable def t239 : Tr := ⟨c1, c3, c27⟩
noncomputable def t240 : Tr := ⟨c4, c0, c27⟩
noncomputable def t241 : Tr := ⟨c8, c0, c2⟩
noncomputable def t242 : Tr := ⟨c1, c7, c2⟩
noncomputable def t243 : Tr := ⟨c31, c3, c11⟩
noncomputable def t244 : Tr := ⟨c4, c30, c11⟩
noncomputable def t245 : Tr := ⟨c43, c21, c2⟩
noncomputable def t246 : Tr := ⟨c8, c6, c2⟩
noncomputable def t247 : Tr := ⟨c5, c7, c2⟩
noncomputable def t248 : Tr := ⟨c4, c6, c12⟩
noncomputable def t249 : Tr := ⟨c5, c3, c12⟩
noncomputable def t250 : Tr := ⟨c1, c28, c27⟩
noncomputable def t251 : Tr := ⟨c26, c0, c27⟩
noncomputable def t252 : Tr := ⟨c20, c21, c47⟩
noncomputable def t253 : Tr := ⟨c37, c43, c35⟩
noncomputable def t254 : Tr := ⟨c38, c41, c39⟩
noncomputable def t255 : Tr := ⟨c52, c53, c54⟩
noncomputable def t256 : Tr := ⟨c55, c56, c57⟩
noncomputable def t257 : Tr := ⟨c40, c36, c39⟩
noncomputable def t258 : Tr := ⟨c25, c8, c22⟩
noncomputable def t259 : Tr := ⟨c58, c59, c51⟩
noncomputable def t260 : Tr := ⟨c21, c34, c44⟩
noncomputable def t261 : Tr := ⟨c60, c20, c54⟩
noncomputable def t262 : Tr := ⟨c0, c21, c50⟩
noncomputable def t263 : Tr := ⟨c3, c8, c44⟩
noncomputable def t264 : Tr := ⟨c30, c1, c54⟩
noncomputable def t265 : Tr := ⟨c26, c6, c27⟩
noncomputable def t266 : Tr := ⟨c7, c18, c46⟩
noncomputable def t267 : Tr := ⟨c0, c5, c44⟩
noncomputable def t268 : Tr := ⟨c4, c19, c11⟩
noncomputable def t269 : Tr := ⟨c1, c0, c11⟩
noncomputable def t270 : Tr := ⟨c4, c3, c11⟩
noncomputable def t271 : Tr := ⟨c1, c0, c46⟩
noncomputable def t272 : Tr := ⟨c4, c3, c44⟩
noncomputable def t273 : Tr := ⟨c8, c6, c35⟩
noncomputable def t274 : Tr := ⟨c5, c7, c39⟩
noncomputable def t275 : Tr := ⟨c6, c8, c46⟩
noncomputable def t276 : Tr := ⟨c7, c5, c44⟩
noncomputable def t277 : Tr := ⟨c4, c3, c13⟩
noncomputable def t278 : Tr := ⟨c1, c0, c13⟩
noncomputable def t279 : Tr := ⟨c1, c0, c44⟩
noncomputable def t280 : Tr := ⟨c4, c3, c46⟩
noncomputable def t281 : Tr := ⟨c8, c6, c39⟩
noncomputable def t282 : Tr := ⟨c5, c7, c35⟩
noncomputable def t283 : Tr := ⟨c6, c8, c44⟩
noncomputable def t284 : Tr := ⟨c7, c5, c46⟩
noncomputable def t285 : Tr := ⟨c5, c6, c13⟩
noncomputable def t286 : Tr := ⟨c8, c7, c13⟩
noncomputable def t287 : Tr := ⟨c0, c8, c44⟩
noncomputable def t288 : Tr := ⟨c7, c1, c46⟩
noncomputable def t289 : Tr := ⟨c6, c18, c46⟩
noncomputable def t290 : Tr := ⟨c23, c19, c33⟩
noncomputable def t291 : Tr := ⟨c25, c5, c61⟩
noncomputable def t292 : Tr := ⟨c4, c3, c12⟩
noncomputable def t293 : Tr := ⟨c1, c0, c12⟩
noncomputable def t294 : Tr := ⟨c8, c7, c12⟩
noncomputable def t295 : Tr := ⟨c5, c6, c12⟩
noncomputable def t296 : Tr := ⟨c8, c7, c22⟩
noncomputable def t297 : Tr := ⟨c5, c6, c22⟩
noncomputable def t298 : Tr := ⟨c4, c7, c35⟩
noncomputable def t299 : Tr := ⟨c5, c0, c39⟩
noncomputable def t300 : Tr := ⟨c8, c25, c39⟩
noncomputable def t301 : Tr := ⟨c19, c18, c22⟩
noncomputable def t302 : Tr := ⟨c23, c6, c51⟩
noncomputable def t303 : Tr := ⟨c4, c7, c39⟩
noncomputable def t304 : Tr := ⟨c5, c0, c35⟩
noncomputable def t305 : Tr := ⟨c8, c25, c51⟩
noncomputable def t306 : Tr := ⟨c19, c18, c12⟩
noncomputable def t307 : Tr := ⟨c23, c6, c39⟩
noncomputable def t308 : Tr := ⟨c5, c6, c11⟩
noncomputable def t309 : Tr := ⟨c8, c7, c11⟩
noncomputable def t310 : Tr := ⟨c5, c6, c33⟩
noncomputable def t311 : Tr := ⟨c8, c7, c33⟩
noncomputable def t312 : Tr := ⟨c8, c3, c39⟩
noncomputable def t313 : Tr := ⟨c3, c5, c44⟩
noncomputable def t314 : Tr := ⟨c18, c7, c51⟩
noncomputable def t315 : Tr := ⟨c7, c23, c46⟩
noncomputable def t316 : Tr := ⟨c4, c3, c29⟩
noncomputable def t317 : Tr := ⟨c1, c0, c29⟩
noncomputable def t318 : Tr := ⟨c31, c30, c2⟩
noncomputable def t319 : Tr := ⟨c5, c7, c11⟩
noncomputable def t320 : Tr := ⟨c8, c6, c11⟩
noncomputable def t321 : Tr := ⟨c31, c30, c29⟩
noncomputable def t322 : Tr := ⟨c26, c28, c2⟩
noncomputable def t323 : Tr := ⟨c26, c28, c29⟩
noncomputable def t324 : Tr := ⟨c8, c7, c29⟩
noncomputable def t325 : Tr := ⟨c5, c6, c29⟩
noncomputable def t326 : Tr := ⟨c8, c0, c12⟩
noncomputable def t327 : Tr := ⟨c1, c7, c12⟩
noncomputable def t328 : Tr := ⟨c31, c3, c27⟩
noncomputable def t329 : Tr := ⟨c4, c30, c27⟩
noncomputable def t330 : Tr := ⟨c43, c21, c47⟩
noncomputable def t331 : Tr := ⟨c43, c21, c35⟩
noncomputable def t332 : Tr := ⟨c31, c28, c27⟩
noncomputable def t333 : Tr := ⟨c26, c30, c27⟩
noncomputable def t334 : Tr := ⟨c45, c36, c35⟩
noncomputable def t335 : Tr := ⟨c32, c34, c39⟩
noncomputable def t336 : Tr := ⟨c32, c36, c44⟩
noncomputable def t337 : Tr := ⟨c45, c34, c46⟩
noncomputable def t338 : Tr := ⟨c21, c62, c54⟩
noncomputable def t339 : Tr := ⟨c60, c20, c57⟩
noncomputable def t340 : Tr := ⟨c60, c62, c47⟩
noncomputable def t341 : Tr := ⟨c21, c20, c63⟩
noncomputable def t342 : Tr := ⟨c37, c42, c39⟩
noncomputable def t343 : Tr := ⟨c38, c41, c51⟩
noncomputable def t344 : Tr := ⟨c38, c42, c46⟩
noncomputable def t345 : Tr := ⟨c25, c5, c33⟩
noncomputable def t346 : Tr := ⟨c37, c41, c61⟩
noncomputable def t347 : Tr := ⟨c32, c53, c44⟩
noncomputable def t348 : Tr := ⟨c45, c43, c54⟩
noncomputable def t349 : Tr := ⟨c45, c53, c35⟩
noncomputable def t350 : Tr := ⟨c32, c43, c47⟩
noncomputable def t351 : Tr := ⟨c6, c21, c50⟩
noncomputable def t352 : Tr := ⟨c26, c3, c47⟩
noncomputable def t353 : Tr := ⟨c30, c8, c29⟩
noncomputable def t354 : Tr := ⟨c1, c6, c35⟩
noncomputable def t355 : Tr := ⟨c0, c18, c2⟩
noncomputable def t356 : Tr := ⟨c5, c19, c39⟩
noncomputable def t357 : Tr := ⟨c32, c36, c46⟩
noncomputable def t358 : Tr := ⟨c45, c34, c44⟩
noncomputable def t359 : Tr := ⟨c60, c62, c63⟩
noncomputable def t360 : Tr := ⟨c21, c20, c47⟩
noncomputable def t361 : Tr := ⟨c38, c42, c61⟩
noncomputable def t362 : Tr := ⟨c37, c41, c46⟩
noncomputable def t363 : Tr := ⟨c45, c53, c47⟩
noncomputable def t364 : Tr := ⟨c32, c43, c35⟩
noncomputable def t365 : Tr := ⟨c6, c21, c64⟩
noncomputable def t366 : Tr := ⟨c6, c4, c44⟩
noncomputable def t367 : Tr := ⟨c3, c5, c46⟩
noncomputable def t368 : Tr := ⟨c28, c5, c2⟩
noncomputable def t369 : Tr := ⟨c4, c7, c47⟩
noncomputable def t370 : Tr := ⟨c31, c0, c35⟩
noncomputable def t371 : Tr := ⟨c19, c8, c46⟩
noncomputable def t372 : Tr := ⟨c7, c23, c61⟩
noncomputable def t373 : Tr := ⟨c18, c25, c13⟩
noncomputable def t374 : Tr := ⟨c8, c25, c35⟩
noncomputable def t375 : Tr := ⟨c1, c6, c39⟩
noncomputable def t376 : Tr := ⟨c4, c9, c65⟩
noncomputable def t377 : Tr := ⟨c10, c3, c66⟩
noncomputable def t378 : Tr := ⟨c4, c9, c66⟩
noncomputable def t379 : Tr := ⟨c10, c3, c65⟩
noncomputable def t380 : Tr := ⟨c67, c68, c65⟩
noncomputable def t381 : Tr := ⟨c69, c70, c65⟩
noncomputable def t382 : Tr := ⟨c71, c72, c65⟩
noncomputable def t383 : Tr := ⟨c73, c74, c66⟩
noncomputable def t384 : Tr := ⟨c75, c76, c66⟩
noncomputable def t385 : Tr := ⟨c77, c78, c66⟩
noncomputable def t386 : Tr := ⟨c79, c80, c81⟩
noncomputable def t387 : Tr := ⟨c1, c10, c11⟩
noncomputable def t388 : Tr := ⟨c9, c0, c11⟩
noncomputable def t389 : Tr := ⟨c78, c75, c82⟩
noncomputable def t390 : Tr := ⟨c74, c77, c82⟩
noncomputable def t391 : Tr := ⟨c76, c73, c82⟩
noncomputable def t392 : Tr := ⟨c72, c69, c83⟩
noncomputable def t393 : Tr := ⟨c68, c71, c83⟩
noncomputable def t394 : Tr := ⟨c70, c67, c83⟩
noncomputable def t395 : Tr := ⟨c11, c3, c4⟩
noncomputable def t396 : Tr := ⟨c4, c11, c3⟩
noncomputable def t397 : Tr := ⟨c0, c9, c11⟩
noncomputable def t398 : Tr := ⟨c10, c1, c11⟩
noncomputable def t399 : Tr := ⟨c3, c10, c11⟩
noncomputable def t400 : Tr := ⟨c9, c4, c11⟩
noncomputable def t401 : Tr := ⟨c4, c3, c83⟩
noncomputable def t402 : Tr := ⟨c10, c1, c82⟩
noncomputable def t403 : Tr := ⟨c3, c10, c82⟩
noncomputable def t404 : Tr := ⟨c9, c4, c83⟩
noncomputable def t405 : Tr := ⟨c4, c3, c82⟩
noncomputable def t406 : Tr := ⟨c10, c1, c83⟩
noncomputable def t407 : Tr := ⟨c3, c10, c83⟩
noncomputable def t408 : Tr := ⟨c9, c4, c82⟩
noncomputable def t409 : Tr := ⟨c74, c73, c82⟩
noncomputable def t410 : Tr := ⟨c78, c77, c82⟩
noncomputable def t411 : Tr := ⟨c76, c75, c82⟩
noncomputable def t412 : Tr := ⟨c68, c67, c83⟩
noncomputable def t413 : Tr := ⟨c72, c71, c83⟩
noncomputable def t414 : Tr := ⟨c70, c69, c83⟩
noncomputable def t415 : Tr := ⟨c11, c4, c3⟩
noncomputable def t416 : Tr := ⟨c3, c11, c4⟩
noncomputable def t417 : Tr := ⟨c0, c9, c12⟩
noncomputable def t418 : Tr := ⟨c10, c1, c12⟩
noncomputable def t419 : Tr := ⟨c3, c10, c12⟩
noncomputable def t420 : Tr := ⟨c9, c4, c12⟩
noncomputable def t421 : Tr := ⟨c69, c72, c65⟩
noncomputable def t422 : Tr := ⟨c67, c70, c65⟩
noncomputable def t423 : Tr := ⟨c71, c68, c65⟩
noncomputable def t424 : Tr := ⟨c75, c78, c66⟩
noncomputable def t425 : Tr := ⟨c73, c76, c66⟩
noncomputable def t426 : Tr := ⟨c77, c74, c66⟩
noncomputable def t427 : Tr := ⟨c2, c1, c0⟩
noncomputable def t428 : Tr := ⟨c0, c2, c1⟩
noncomputable def t429 : Tr := ⟨c69, c72, c84⟩
noncomputable def t430 : Tr := ⟨c67, c70, c84⟩
noncomputable def t431 : Tr := ⟨c71, c68, c84⟩
noncomputable def t432 : Tr := ⟨c75, c78, c85⟩
noncomputable def t433 : Tr := ⟨c73, c76, c85⟩
noncomputable def t434 : Tr := ⟨c77, c74, c85⟩
noncomputable def t435 : Tr := ⟨c12, c5, c6⟩
noncomputable def t436 : Tr := ⟨c6, c12, c5⟩
noncomputable def t437 : Tr := ⟨c0, c9, c13⟩
noncomputable def t438 : Tr := ⟨c10, c1, c13⟩
noncomputable def t439 : Tr := ⟨c3, c10, c29⟩
noncomputable def t440 : Tr := ⟨c9, c4, c29⟩
noncomputable def t441 : Tr := ⟨c3, c10, c13⟩
noncomputable def t442 : Tr := ⟨c9, c4, c13⟩
noncomputable def t443 : Tr := ⟨c0, c9, c29⟩
noncomputable def t444 : Tr := ⟨c10, c1, c29⟩
noncomputable def t445 : Tr := ⟨c74, c73, c86⟩
noncomputable def t446 : Tr := ⟨c78, c77, c86⟩
noncomputable def t447 : Tr := ⟨c76, c75, c86⟩
noncomputable def t448 : Tr := ⟨c69, c72, c87⟩
noncomputable def t449 : Tr := ⟨c67, c70, c87⟩
noncomputable def t450 : Tr := ⟨c71, c68, c87⟩
noncomputable def t451 : Tr := ⟨c68, c67, c88⟩
noncomputable def t452 : Tr := ⟨c72, c71, c88⟩
noncomputable def t453 : Tr := ⟨c70, c69, c88⟩
noncomputable def t454 : Tr := ⟨c75, c78, c89⟩
noncomputable def t455 : Tr := ⟨c73, c76, c89⟩
noncomputable def t456 : Tr := ⟨c77, c74, c89⟩
noncomputable def t457 : Tr := ⟨c13, c8, c7⟩
noncomputable def t458 : Tr := ⟨c7, c13, c8⟩
noncomputable def t459 : Tr := ⟨c29, c31, c30⟩
noncomputable def t460 : Tr := ⟨c30, c29, c31⟩
noncomputable def t461 : Tr := ⟨c9, c0, c89⟩
noncomputable def t462 : Tr := ⟨c1, c10, c84⟩
noncomputable def t463 : Tr := ⟨c9, c0, c84⟩
noncomputable def t464 : Tr := ⟨c1, c10, c89⟩
noncomputable def t465 : Tr := ⟨c9, c0, c65⟩
noncomputable def t466 : Tr := ⟨c1, c10, c66⟩
noncomputable def t467 : Tr := ⟨c9, c0, c66⟩
noncomputable def t468 : Tr := ⟨c1, c10, c65⟩
noncomputable def t469 : Tr := ⟨c9, c0, c12⟩
noncomputable def t470 : Tr := ⟨c1, c10, c12⟩
noncomputable def t471 : Tr := ⟨c10, c3, c11⟩
noncomputable def t472 : Tr := ⟨c4, c9, c11⟩
noncomputable def t473 : Tr := ⟨c10, c3, c27⟩
noncomputable def t474 : Tr := ⟨c4, c9, c27⟩
noncomputable def t475 : Tr := ⟨c4, c3, c86⟩
noncomputable def t476 : Tr := ⟨c0, c9, c90⟩
noncomputable def t477 : Tr := ⟨c1, c0, c82⟩
noncomputable def t478 : Tr := ⟨c4, c3, c90⟩
noncomputable def t479 : Tr := ⟨c0, c9, c86⟩
noncomputable def t480 : Tr := ⟨c1, c0, c83⟩
noncomputable def t481 : Tr := ⟨c0, c9, c82⟩
noncomputable def t482 : Tr := ⟨c0, c9, c83⟩
noncomputable def t483 : Tr := ⟨c10, c3, c13⟩
noncomputable def t484 : Tr := ⟨c4, c9, c13⟩
noncomputable def t485 : Tr := ⟨c11, c3, c1⟩
noncomputable def t486 : Tr := ⟨c2, c3, c4⟩
noncomputable def t487 : Tr := ⟨c11, c0, c4⟩
noncomputable def t488 : Tr := ⟨c1, c11, c3⟩
noncomputable def t489 : Tr := ⟨c4, c2, c3⟩
noncomputable def t490 : Tr := ⟨c4, c11, c0⟩
noncomputable def t491 : Tr := ⟨c2, c6, c5⟩
noncomputable def t492 : Tr := ⟨c11, c7, c5⟩
noncomputable def t493 : Tr := ⟨c2, c7, c8⟩
noncomputable def t494 : Tr := ⟨c11, c6, c8⟩
noncomputable def t495 : Tr := ⟨c1, c12, c6⟩
noncomputable def t496 : Tr := ⟨c1, c13, c7⟩
noncomputable def t497 : Tr := ⟨c4, c12, c7⟩
noncomputable def t498 : Tr := ⟨c4, c13, c6⟩
noncomputable def t499 : Tr := ⟨c12, c0, c5⟩
noncomputable def t500 : Tr := ⟨c13, c3, c5⟩
noncomputable def t501 : Tr := ⟨c12, c3, c8⟩
noncomputable def t502 : Tr := ⟨c13, c0, c8⟩
noncomputable def t503 : Tr := ⟨c5, c2, c6⟩
noncomputable def t504 : Tr := ⟨c5, c11, c7⟩
noncomputable def t505 : Tr := ⟨c8, c2, c7⟩
noncomputable def t506 : Tr := ⟨c8, c11, c6⟩
noncomputable def t507 : Tr := ⟨c12, c6, c1⟩
noncomputable def t508 : Tr := ⟨c13, c7, c1⟩
noncomputable def t509 : Tr := ⟨c12, c7, c4⟩
noncomputable def t510 : Tr := ⟨c13, c6, c4⟩
noncomputable def t511 : Tr := ⟨c5, c12, c0⟩
noncomputable def t512 : Tr := ⟨c5, c13, c3⟩
noncomputable def t513 : Tr := ⟨c8, c12, c3⟩
noncomputable def t514 : Tr := ⟨c8, c13, c0⟩
noncomputable def t515 : Tr := ⟨c12, c6, c5⟩
noncomputable def t516 : Tr := ⟨c13, c7, c5⟩
noncomputable def t517 : Tr := ⟨c12, c7, c8⟩
noncomputable def t518 : Tr := ⟨c13, c6, c8⟩
noncomputable def t519 : Tr := ⟨c5, c12, c6⟩
noncomputable def t520 : Tr := ⟨c5, c13, c7⟩
noncomputable def t521 : Tr := ⟨c8, c12, c7⟩
noncomputable def t522 : Tr := ⟨c8, c13, c6⟩
noncomputable def t523 : Tr := ⟨c11, c7, c1⟩
noncomputable def t524 : Tr := ⟨c2, c3, c8⟩
noncomputable def t525 : Tr := ⟨c1, c11, c7⟩
noncomputable def t526 : Tr := ⟨c13, c25, c5⟩
noncomputable def t527 : Tr := ⟨c12, c7, c18⟩
noncomputable def t528 : Tr := ⟨c13, c19, c18⟩
noncomputable def t529 : Tr := ⟨c5, c13, c25⟩
noncomputable def t530 : Tr := ⟨c8, c22, c25⟩
noncomputable def t531 : Tr := ⟨c18, c13, c19⟩
noncomputable def t532 : Tr := ⟨c2, c0, c4⟩
noncomputable def t533 : Tr := ⟨c11, c0, c1⟩
noncomputable def t534 : Tr := ⟨c2, c3, c1⟩
noncomputable def t535 : Tr := ⟨c4, c2, c0⟩
noncomputable def t536 : Tr := ⟨c1, c11, c0⟩
noncomputable def t537 : Tr := ⟨c1, c2, c3⟩
noncomputable def t538 : Tr := ⟨c29, c30, c4⟩
noncomputable def t539 : Tr := ⟨c11, c30, c31⟩
noncomputable def t540 : Tr := ⟨c29, c3, c31⟩
noncomputable def t541 : Tr := ⟨c4, c29, c30⟩
noncomputable def t542 : Tr := ⟨c31, c11, c30⟩
noncomputable def t543 : Tr := ⟨c31, c29, c3⟩
noncomputable def t544 : Tr := ⟨c13, c7, c8⟩
noncomputable def t545 : Tr := ⟨c12, c6, c8⟩
noncomputable def t546 : Tr := ⟨c13, c6, c5⟩
noncomputable def t547 : Tr := ⟨c12, c7, c5⟩
noncomputable def t548 : Tr := ⟨c8, c13, c7⟩
noncomputable def t549 : Tr := ⟨c8, c12, c6⟩
noncomputable def t550 : Tr := ⟨c5, c13, c6⟩
noncomputable def t551 : Tr := ⟨c5, c12, c7⟩
noncomputable def t552 : Tr := ⟨c11, c7, c8⟩
noncomputable def t553 : Tr := ⟨c2, c6, c8⟩
noncomputable def t554 : Tr := ⟨c11, c6, c5⟩
noncomputable def t555 : Tr := ⟨c2, c7, c5⟩
noncomputable def t556 : Tr := ⟨c4, c13, c7⟩
noncomputable def t557 : Tr := ⟨c4, c12, c6⟩
noncomputable def t558 : Tr := ⟨c1, c13, c6⟩
noncomputable def t559 : Tr := ⟨c1, c12, c7⟩
noncomputable def t560 : Tr := ⟨c13, c3, c8⟩
noncomputable def t561 : Tr := ⟨c12, c0, c8⟩
noncomputable def t562 : Tr := ⟨c13, c0, c5⟩
noncomputable def t563 : Tr := ⟨c12, c3, c5⟩
noncomputable def t564 : Tr := ⟨c8, c11, c7⟩
noncomputable def t565 : Tr := ⟨c8, c2, c6⟩
noncomputable def t566 : Tr := ⟨c5, c11, c6⟩
noncomputable def t567 : Tr := ⟨c5, c2, c7⟩
noncomputable def t568 : Tr := ⟨c13, c7, c4⟩
noncomputable def t569 : Tr := ⟨c12, c6, c4⟩
noncomputable def t570 : Tr := ⟨c13, c6, c1⟩
noncomputable def t571 : Tr := ⟨c12, c7, c1⟩
noncomputable def t572 : Tr := ⟨c8, c13, c3⟩
noncomputable def t573 : Tr := ⟨c8, c12, c0⟩
noncomputable def t574 : Tr := ⟨c5, c13, c0⟩
noncomputable def t575 : Tr := ⟨c5, c12, c3⟩
noncomputable def t576 : Tr := ⟨c44, c34, c1⟩
noncomputable def t577 : Tr := ⟨c2, c34, c45⟩
noncomputable def t578 : Tr := ⟨c44, c0, c45⟩
noncomputable def t579 : Tr := ⟨c1, c44, c34⟩
noncomputable def t580 : Tr := ⟨c45, c2, c34⟩
noncomputable def t581 : Tr := ⟨c45, c44, c0⟩
noncomputable def t582 : Tr := ⟨c47, c20, c4⟩
noncomputable def t583 : Tr := ⟨c11, c20, c21⟩
noncomputable def t584 : Tr := ⟨c47, c3, c21⟩
noncomputable def t585 : Tr := ⟨c4, c47, c20⟩
noncomputable def t586 : Tr := ⟨c21, c11, c20⟩
noncomputable def t587 : Tr := ⟨c21, c47, c3⟩
noncomputable def t588 : Tr := ⟨c44, c41, c5⟩
noncomputable def t589 : Tr := ⟨c2, c41, c37⟩
noncomputable def t590 : Tr := ⟨c44, c6, c37⟩
noncomputable def t591 : Tr := ⟨c1, c46, c41⟩
noncomputable def t592 : Tr := ⟨c45, c12, c41⟩
noncomputable def t593 : Tr := ⟨c45, c46, c6⟩
noncomputable def t594 : Tr := ⟨c47, c43, c8⟩
noncomputable def t595 : Tr := ⟨c11, c43, c32⟩
noncomputable def t596 : Tr := ⟨c47, c7, c32⟩
noncomputable def t597 : Tr := ⟨c4, c35, c43⟩
noncomputable def t598 : Tr := ⟨c21, c13, c43⟩
noncomputable def t599 : Tr := ⟨c21, c35, c7⟩
noncomputable def t600 : Tr := ⟨c46, c34, c5⟩
noncomputable def t601 : Tr := ⟨c12, c34, c37⟩
noncomputable def t602 : Tr := ⟨c46, c0, c37⟩
noncomputable def t603 : Tr := ⟨c5, c44, c41⟩
noncomputable def t604 : Tr := ⟨c37, c2, c41⟩
noncomputable def t605 : Tr := ⟨c37, c44, c6⟩
noncomputable def t606 : Tr := ⟨c35, c20, c8⟩
noncomputable def t607 : Tr := ⟨c13, c20, c32⟩
noncomputable def t608 : Tr := ⟨c35, c3, c32⟩
noncomputable def t609 : Tr := ⟨c8, c47, c43⟩
noncomputable def t610 : Tr := ⟨c32, c11, c43⟩
noncomputable def t611 : Tr := ⟨c32, c47, c7⟩
noncomputable def t612 : Tr := ⟨c46, c41, c1⟩
noncomputable def t613 : Tr := ⟨c12, c41, c45⟩
noncomputable def t614 : Tr := ⟨c46, c6, c45⟩
noncomputable def t615 : Tr := ⟨c5, c46, c34⟩
noncomputable def t616 : Tr := ⟨c37, c12, c34⟩
noncomputable def t617 : Tr := ⟨c37, c46, c0⟩
noncomputable def t618 : Tr := ⟨c35, c43, c4⟩
noncomputable def t619 : Tr := ⟨c13, c43, c21⟩
noncomputable def t620 : Tr := ⟨c35, c7, c21⟩
noncomputable def t621 : Tr := ⟨c8, c35, c20⟩
noncomputable def t622 : Tr := ⟨c32, c13, c20⟩
noncomputable def t623 : Tr := ⟨c32, c35, c3⟩
noncomputable def t624 : Tr := ⟨c44, c34, c45⟩
noncomputable def t625 : Tr := ⟨c35, c43, c45⟩
noncomputable def t626 : Tr := ⟨c44, c43, c32⟩
noncomputable def t627 : Tr := ⟨c35, c34, c32⟩
noncomputable def t628 : Tr := ⟨c45, c44, c34⟩
noncomputable def t629 : Tr := ⟨c45, c35, c43⟩
noncomputable def t630 : Tr := ⟨c32, c44, c43⟩
noncomputable def t631 : Tr := ⟨c32, c35, c34⟩
noncomputable def t632 : Tr := ⟨c44, c41, c37⟩
noncomputable def t633 : Tr := ⟨c35, c36, c37⟩
noncomputable def t634 : Tr := ⟨c44, c36, c38⟩
noncomputable def t635 : Tr := ⟨c35, c41, c38⟩
noncomputable def t636 : Tr := ⟨c45, c46, c41⟩
noncomputable def t637 : Tr := ⟨c45, c39, c36⟩
noncomputable def t638 : Tr := ⟨c32, c46, c36⟩
noncomputable def t639 : Tr := ⟨c32, c39, c41⟩
noncomputable def t640 : Tr := ⟨c46, c34, c37⟩
noncomputable def t641 : Tr := ⟨c39, c43, c37⟩
noncomputable def t642 : Tr := ⟨c46, c43, c38⟩
noncomputable def t643 : Tr := ⟨c39, c34, c38⟩
noncomputable def t644 : Tr := ⟨c37, c44, c41⟩
noncomputable def t645 : Tr := ⟨c37, c35, c36⟩
noncomputable def t646 : Tr := ⟨c38, c44, c36⟩
noncomputable def t647 : Tr := ⟨c38, c35, c41⟩
noncomputable def t648 : Tr := ⟨c46, c41, c45⟩
noncomputable def t649 : Tr := ⟨c39, c36, c45⟩
noncomputable def t650 : Tr := ⟨c46, c36, c32⟩
noncomputable def t651 : Tr := ⟨c39, c41, c32⟩
noncomputable def t652 : Tr := ⟨c37, c46, c34⟩
noncomputable def t653 : Tr := ⟨c37, c39, c43⟩
noncomputable def t654 : Tr := ⟨c38, c46, c43⟩
noncomputable def t655 : Tr := ⟨c38, c39, c34⟩
noncomputable def t656 : Tr := ⟨c29, c0, c26⟩
noncomputable def t657 : Tr := ⟨c27, c30, c1⟩
noncomputable def t658 : Tr := ⟨c2, c28, c31⟩
noncomputable def t659 : Tr := ⟨c26, c29, c0⟩
noncomputable def t660 : Tr := ⟨c1, c27, c30⟩
noncomputable def t661 : Tr := ⟨c31, c2, c28⟩
noncomputable def t662 : Tr := ⟨c2, c30, c4⟩
noncomputable def t663 : Tr := ⟨c11, c0, c31⟩
noncomputable def t664 : Tr := ⟨c4, c2, c30⟩
noncomputable def t665 : Tr := ⟨c12, c3, c1⟩
noncomputable def t666 : Tr := ⟨c5, c11, c0⟩
noncomputable def t667 : Tr := ⟨c1, c12, c3⟩
noncomputable def t668 : Tr := ⟨c0, c11, c1⟩
noncomputable def t669 : Tr := ⟨c0, c2, c4⟩
noncomputable def t670 : Tr := ⟨c2, c1, c3⟩
noncomputable def t671 : Tr := ⟨c2, c4, c0⟩
noncomputable def t672 : Tr := ⟨c7, c12, c5⟩
noncomputable def t673 : Tr := ⟨c6, c13, c5⟩
noncomputable def t674 : Tr := ⟨c6, c12, c8⟩
noncomputable def t675 : Tr := ⟨c12, c5, c7⟩
noncomputable def t676 : Tr := ⟨c12, c8, c6⟩
noncomputable def t677 : Tr := ⟨c13, c5, c6⟩
noncomputable def t678 : Tr := ⟨c1, c6, c13⟩
noncomputable def t679 : Tr := ⟨c4, c7, c13⟩
noncomputable def t680 : Tr := ⟨c3, c12, c5⟩
noncomputable def t681 : Tr := ⟨c0, c13, c5⟩
noncomputable def t682 : Tr := ⟨c0, c12, c8⟩
noncomputable def t683 : Tr := ⟨c3, c13, c8⟩
noncomputable def t684 : Tr := ⟨c2, c5, c7⟩
noncomputable def t685 : Tr := ⟨c11, c8, c7⟩
noncomputable def t686 : Tr := ⟨c2, c8, c6⟩
noncomputable def t687 : Tr := ⟨c11, c5, c6⟩
noncomputable def t688 : Tr := ⟨c5, c0, c13⟩
noncomputable def t689 : Tr := ⟨c8, c3, c13⟩
noncomputable def t690 : Tr := ⟨c7, c2, c5⟩
noncomputable def t691 : Tr := ⟨c6, c11, c5⟩
noncomputable def t692 : Tr := ⟨c6, c2, c8⟩
noncomputable def t693 : Tr := ⟨c7, c11, c8⟩
noncomputable def t694 : Tr := ⟨c12, c1, c7⟩
noncomputable def t695 : Tr := ⟨c13, c4, c7⟩
noncomputable def t696 : Tr := ⟨c12, c4, c6⟩
noncomputable def t697 : Tr := ⟨c13, c1, c6⟩
noncomputable def t698 : Tr := ⟨c7, c12, c1⟩
noncomputable def t699 : Tr := ⟨c6, c13, c1⟩
noncomputable def t700 : Tr := ⟨c6, c12, c4⟩
noncomputable def t701 : Tr := ⟨c7, c13, c4⟩
noncomputable def t702 : Tr := ⟨c12, c5, c3⟩
noncomputable def t703 : Tr := ⟨c13, c8, c3⟩
noncomputable def t704 : Tr := ⟨c12, c8, c0⟩
noncomputable def t705 : Tr := ⟨c13, c5, c0⟩
noncomputable def t706 : Tr := ⟨c45, c43, c35⟩
noncomputable def t707 : Tr := ⟨c38, c34, c39⟩
noncomputable def t708 : Tr := ⟨c32, c43, c44⟩
noncomputable def t709 : Tr := ⟨c37, c34, c46⟩
noncomputable def t710 : Tr := ⟨c34, c35, c32⟩
noncomputable def t711 : Tr := ⟨c36, c44, c38⟩
noncomputable def t712 : Tr := ⟨c43, c35, c45⟩
noncomputable def t713 : Tr := ⟨c41, c44, c37⟩
noncomputable def t714 : Tr := ⟨c35, c38, c41⟩
noncomputable def t715 : Tr := ⟨c44, c45, c34⟩
noncomputable def t716 : Tr := ⟨c35, c37, c36⟩
noncomputable def t717 : Tr := ⟨c46, c38, c43⟩
noncomputable def t718 : Tr := ⟨c45, c36, c39⟩
noncomputable def t719 : Tr := ⟨c3, c18, c22⟩
noncomputable def t720 : Tr := ⟨c3, c23, c33⟩
noncomputable def t721 : Tr := ⟨c34, c39, c38⟩
noncomputable def t722 : Tr := ⟨c11, c25, c23⟩
noncomputable def t723 : Tr := ⟨c36, c46, c58⟩
noncomputable def t724 : Tr := ⟨c43, c39, c37⟩
noncomputable def t725 : Tr := ⟨c11, c19, c18⟩
noncomputable def t726 : Tr := ⟨c41, c46, c40⟩
noncomputable def t727 : Tr := ⟨c35, c58, c59⟩
noncomputable def t728 : Tr := ⟨c8, c22, c7⟩
noncomputable def t729 : Tr := ⟨c44, c37, c41⟩
noncomputable def t730 : Tr := ⟨c35, c40, c42⟩
noncomputable def t731 : Tr := ⟨c46, c58, c36⟩
noncomputable def t732 : Tr := ⟨c37, c43, c39⟩
noncomputable def t733 : Tr := ⟨c58, c34, c51⟩
noncomputable def t734 : Tr := ⟨c38, c43, c46⟩
noncomputable def t735 : Tr := ⟨c40, c34, c61⟩
noncomputable def t736 : Tr := ⟨c41, c35, c38⟩
noncomputable def t737 : Tr := ⟨c13, c7, c23⟩
noncomputable def t738 : Tr := ⟨c42, c44, c58⟩
noncomputable def t739 : Tr := ⟨c36, c35, c37⟩
noncomputable def t740 : Tr := ⟨c13, c6, c18⟩
noncomputable def t741 : Tr := ⟨c59, c44, c40⟩
noncomputable def t742 : Tr := ⟨c23, c11, c25⟩
noncomputable def t743 : Tr := ⟨c39, c38, c59⟩
noncomputable def t744 : Tr := ⟨c18, c12, c7⟩
noncomputable def t745 : Tr := ⟨c46, c45, c41⟩
noncomputable def t746 : Tr := ⟨c39, c37, c42⟩
noncomputable def t747 : Tr := ⟨c61, c38, c36⟩
noncomputable def t748 : Tr := ⟨c37, c36, c35⟩
noncomputable def t749 : Tr := ⟨c58, c41, c39⟩
noncomputable def t750 : Tr := ⟨c38, c36, c44⟩
noncomputable def t751 : Tr := ⟨c40, c41, c46⟩
noncomputable def t752 : Tr := ⟨c41, c39, c32⟩
noncomputable def t753 : Tr := ⟨c42, c46, c38⟩
noncomputable def t754 : Tr := ⟨c36, c39, c45⟩
noncomputable def t755 : Tr := ⟨c13, c19, c8⟩
noncomputable def t756 : Tr := ⟨c59, c46, c37⟩
noncomputable def t757 : Tr := ⟨c23, c13, c7⟩
noncomputable def t758 : Tr := ⟨c39, c58, c41⟩
noncomputable def t759 : Tr := ⟨c18, c22, c3⟩
noncomputable def t760 : Tr := ⟨c46, c37, c34⟩
noncomputable def t761 : Tr := ⟨c39, c40, c36⟩
noncomputable def t762 : Tr := ⟨c61, c58, c43⟩
noncomputable def t763 : Tr := ⟨c38, c41, c35⟩
noncomputable def t764 : Tr := ⟨c36, c46, c32⟩
noncomputable def t765 : Tr := ⟨c34, c44, c45⟩
noncomputable def t766 : Tr := ⟨c39, c37, c43⟩
noncomputable def t767 : Tr := ⟨c46, c32, c36⟩
noncomputable def t768 : Tr := ⟨c38, c43, c44⟩
noncomputable def t769 : Tr := ⟨c34, c39, c32⟩
noncomputable def t770 : Tr := ⟨c43, c44, c38⟩
noncomputable def t771 : Tr := ⟨c36, c35, c45⟩
noncomputable def t772 : Tr := ⟨c41, c46, c37⟩
noncomputable def t773 : Tr := ⟨c39, c32, c34⟩
noncomputable def t774 : Tr := ⟨c46, c37, c41⟩
noncomputable def t775 : Tr := ⟨c35, c45, c36⟩
noncomputable def t776 : Tr := ⟨c44, c38, c43⟩
noncomputable def t777 : Tr := ⟨c13, c0, c4⟩
noncomputable def t778 : Tr := ⟨c41, c51, c38⟩
noncomputable def t779 : Tr := ⟨c33, c7, c23⟩
noncomputable def t780 : Tr := ⟨c36, c51, c40⟩
noncomputable def t781 : Tr := ⟨c33, c6, c8⟩
noncomputable def t782 : Tr := ⟨c23, c33, c7⟩
noncomputable def t783 : Tr := ⟨c51, c38, c41⟩
noncomputable def t784 : Tr := ⟨c51, c40, c36⟩
noncomputable def t785 : Tr := ⟨c61, c38, c42⟩
noncomputable def t786 : Tr := ⟨c0, c11, c4⟩
noncomputable def t787 : Tr := ⟨c3, c2, c4⟩
noncomputable def t788 : Tr := ⟨c3, c11, c1⟩
noncomputable def t789 : Tr := ⟨c11, c4, c0⟩
noncomputable def t790 : Tr := ⟨c11, c1, c3⟩
noncomputable def t791 : Tr := ⟨c2, c4, c3⟩
noncomputable def t792 : Tr := ⟨c1, c7, c13⟩
noncomputable def t793 : Tr := ⟨c4, c6, c13⟩
noncomputable def t794 : Tr := ⟨c4, c7, c12⟩
noncomputable def t795 : Tr := ⟨c1, c6, c12⟩
noncomputable def t796 : Tr := ⟨c0, c13, c8⟩
noncomputable def t797 : Tr := ⟨c3, c12, c8⟩
noncomputable def t798 : Tr := ⟨c3, c13, c5⟩
noncomputable def t799 : Tr := ⟨c0, c12, c5⟩
noncomputable def t800 : Tr := ⟨c11, c8, c6⟩
noncomputable def t801 : Tr := ⟨c2, c5, c6⟩
noncomputable def t802 : Tr := ⟨c11, c5, c7⟩
noncomputable def t803 : Tr := ⟨c2, c8, c7⟩
noncomputable def t804 : Tr := ⟨c5, c3, c13⟩
noncomputable def t805 : Tr := ⟨c8, c0, c13⟩
noncomputable def t806 : Tr := ⟨c8, c3, c12⟩
noncomputable def t807 : Tr := ⟨c5, c0, c12⟩
noncomputable def t808 : Tr := ⟨c6, c11, c8⟩
noncomputable def t809 : Tr := ⟨c7, c2, c8⟩
noncomputable def t810 : Tr := ⟨c7, c11, c5⟩
noncomputable def t811 : Tr := ⟨c6, c2, c5⟩
noncomputable def t812 : Tr := ⟨c13, c4, c6⟩
noncomputable def t813 : Tr := ⟨c12, c1, c6⟩
noncomputable def t814 : Tr := ⟨c13, c1, c7⟩
noncomputable def t815 : Tr := ⟨c12, c4, c7⟩
noncomputable def t816 : Tr := ⟨c6, c13, c4⟩
noncomputable def t817 : Tr := ⟨c7, c12, c4⟩
noncomputable def t818 : Tr := ⟨c7, c13, c1⟩
noncomputable def t819 : Tr := ⟨c6, c12, c1⟩
noncomputable def t820 : Tr := ⟨c13, c8, c0⟩
noncomputable def t821 : Tr := ⟨c12, c5, c0⟩
noncomputable def t822 : Tr := ⟨c13, c5, c3⟩
noncomputable def t823 : Tr := ⟨c12, c8, c3⟩
noncomputable def t824 : Tr := ⟨c6, c13, c8⟩
noncomputable def t825 : Tr := ⟨c7, c12, c8⟩
noncomputable def t826 : Tr := ⟨c7, c13, c5⟩
noncomputable def t827 : Tr := ⟨c13, c8, c6⟩
noncomputable def t828 : Tr := ⟨c13, c5, c7⟩
noncomputable def t829 : Tr := ⟨c12, c8, c7⟩
noncomputable def t830 : Tr := ⟨c5, c3, c11⟩
noncomputable def t831 : Tr := ⟨c4, c6, c11⟩
noncomputable def t832 : Tr := ⟨c8, c3, c2⟩
noncomputable def t833 : Tr := ⟨c1, c6, c2⟩
noncomputable def t834 : Tr := ⟨c6, c11, c4⟩
noncomputable def t835 : Tr := ⟨c3, c12, c4⟩
noncomputable def t836 : Tr := ⟨c7, c11, c1⟩
noncomputable def t837 : Tr := ⟨c0, c12, c1⟩
noncomputable def t838 : Tr := ⟨c11, c4, c6⟩
noncomputable def t839 : Tr := ⟨c12, c1, c0⟩
noncomputable def t840 : Tr := ⟨c11, c1, c7⟩
noncomputable def t841 : Tr := ⟨c4, c19, c13⟩
noncomputable def t842 : Tr := ⟨c1, c19, c12⟩
noncomputable def t843 : Tr := ⟨c3, c22, c8⟩
noncomputable def t844 : Tr := ⟨c0, c22, c5⟩
noncomputable def t845 : Tr := ⟨c1, c33, c25⟩
noncomputable def t846 : Tr := ⟨c11, c8, c19⟩
noncomputable def t847 : Tr := ⟨c8, c12, c25⟩
noncomputable def t848 : Tr := ⟨c11, c5, c25⟩
noncomputable def t849 : Tr := ⟨c12, c18, c25⟩
noncomputable def t850 : Tr := ⟨c23, c3, c13⟩
noncomputable def t851 : Tr := ⟨c18, c3, c12⟩
noncomputable def t852 : Tr := ⟨c19, c11, c8⟩
noncomputable def t853 : Tr := ⟨c33, c7, c5⟩
noncomputable def t854 : Tr := ⟨c25, c11, c5⟩
noncomputable def t855 : Tr := ⟨c13, c4, c19⟩
noncomputable def t856 : Tr := ⟨c18, c2, c25⟩
noncomputable def t857 : Tr := ⟨c22, c1, c6⟩
noncomputable def t858 : Tr := ⟨c13, c1, c25⟩
noncomputable def t859 : Tr := ⟨c22, c8, c25⟩
noncomputable def t860 : Tr := ⟨c23, c7, c11⟩
noncomputable def t861 : Tr := ⟨c25, c18, c2⟩
noncomputable def t862 : Tr := ⟨c8, c19, c11⟩
noncomputable def t863 : Tr := ⟨c18, c7, c2⟩
noncomputable def t864 : Tr := ⟨c5, c19, c2⟩
noncomputable def t865 : Tr := ⟨c19, c13, c4⟩
noncomputable def t866 : Tr := ⟨c33, c25, c1⟩
noncomputable def t867 : Tr := ⟨c7, c22, c4⟩
noncomputable def t868 : Tr := ⟨c25, c13, c1⟩
noncomputable def t869 : Tr := ⟨c33, c19, c4⟩
noncomputable def t870 : Tr := ⟨c6, c22, c1⟩
noncomputable def t871 : Tr := ⟨c5, c33, c7⟩
noncomputable def t872 : Tr := ⟨c22, c5, c0⟩
noncomputable def t873 : Tr := ⟨c22, c18, c7⟩
noncomputable def t874 : Tr := ⟨c32, c41, c44⟩
noncomputable def t875 : Tr := ⟨c37, c36, c44⟩
noncomputable def t876 : Tr := ⟨c45, c41, c39⟩
noncomputable def t877 : Tr := ⟨c38, c36, c39⟩
noncomputable def t878 : Tr := ⟨c43, c46, c45⟩
noncomputable def t879 : Tr := ⟨c41, c39, c45⟩
noncomputable def t880 : Tr := ⟨c34, c46, c38⟩
noncomputable def t881 : Tr := ⟨c36, c39, c38⟩
noncomputable def t882 : Tr := ⟨c44, c37, c36⟩
noncomputable def t883 : Tr := ⟨c35, c32, c43⟩
noncomputable def t884 : Tr := ⟨c44, c32, c41⟩
noncomputable def t885 : Tr := ⟨c39, c45, c41⟩
noncomputable def t886 : Tr := ⟨c38, c59, c46⟩
noncomputable def t887 : Tr := ⟨c40, c42, c46⟩
noncomputable def t888 : Tr := ⟨c37, c59, c51⟩
noncomputable def t889 : Tr := ⟨c58, c42, c51⟩
noncomputable def t890 : Tr := ⟨c36, c61, c37⟩
noncomputable def t891 : Tr := ⟨c59, c51, c37⟩
noncomputable def t892 : Tr := ⟨c41, c61, c58⟩
noncomputable def t893 : Tr := ⟨c42, c51, c58⟩
noncomputable def t894 : Tr := ⟨c46, c40, c42⟩
noncomputable def t895 : Tr := ⟨c39, c38, c36⟩
noncomputable def t896 : Tr := ⟨c46, c38, c59⟩
noncomputable def t897 : Tr := ⟨c51, c37, c59⟩
noncomputable def t898 : Tr := ⟨c7, c2, c1⟩
noncomputable def t899 : Tr := ⟨c0, c13, c1⟩
noncomputable def t900 : Tr := ⟨c0, c2, c8⟩
noncomputable def t901 : Tr := ⟨c2, c1, c7⟩
noncomputable def t902 : Tr := ⟨c2, c8, c0⟩
noncomputable def t903 : Tr := ⟨c13, c1, c0⟩
noncomputable def t904 : Tr := ⟨c30, c11, c4⟩
noncomputable def t905 : Tr := ⟨c3, c29, c4⟩
noncomputable def t906 : Tr := ⟨c3, c11, c31⟩
noncomputable def t907 : Tr := ⟨c11, c4, c30⟩
noncomputable def t908 : Tr := ⟨c11, c31, c3⟩
noncomputable def t909 : Tr := ⟨c29, c4, c3⟩
noncomputable def t910 : Tr := ⟨c30, c27, c26⟩
noncomputable def t911 : Tr := ⟨c28, c29, c26⟩
noncomputable def t912 : Tr := ⟨c28, c27, c31⟩
noncomputable def t913 : Tr := ⟨c27, c26, c30⟩
noncomputable def t914 : Tr := ⟨c27, c31, c28⟩
noncomputable def t915 : Tr := ⟨c29, c26, c28⟩
noncomputable def t916 : Tr := ⟨c0, c27, c26⟩
noncomputable def t917 : Tr := ⟨c28, c2, c26⟩
noncomputable def t918 : Tr := ⟨c28, c27, c1⟩
noncomputable def t919 : Tr := ⟨c27, c26, c0⟩
noncomputable def t920 : Tr := ⟨c27, c1, c28⟩
noncomputable def t921 : Tr := ⟨c2, c26, c28⟩
noncomputable def t922 : Tr := ⟨c5, c0, c11⟩
noncomputable def t923 : Tr := ⟨c4, c7, c11⟩
noncomputable def t924 : Tr := ⟨c6, c2, c4⟩
noncomputable def t925 : Tr := ⟨c3, c13, c4⟩
noncomputable def t926 : Tr := ⟨c13, c4, c3⟩
noncomputable def t927 : Tr := ⟨c2, c4, c6⟩
noncomputable def t928 : Tr := ⟨c26, c3, c2⟩
noncomputable def t929 : Tr := ⟨c1, c30, c2⟩
noncomputable def t930 : Tr := ⟨c28, c11, c1⟩
noncomputable def t931 : Tr := ⟨c29, c28, c1⟩
noncomputable def t932 : Tr := ⟨c0, c29, c1⟩
noncomputable def t933 : Tr := ⟨c29, c1, c0⟩
noncomputable def t934 : Tr := ⟨c11, c1, c28⟩
noncomputable def t935 : Tr := ⟨c1, c25, c12⟩
noncomputable def t936 : Tr := ⟨c4, c25, c13⟩
noncomputable def t937 : Tr := ⟨c0, c33, c5⟩
noncomputable def t938 : Tr := ⟨c3, c33, c8⟩
noncomputable def t939 : Tr := ⟨c2, c5, c25⟩
noncomputable def t940 : Tr := ⟨c2, c8, c19⟩
noncomputable def t941 : Tr := ⟨c13, c23, c19⟩
noncomputable def t942 : Tr := ⟨c31, c7, c13⟩
noncomputable def t943 : Tr := ⟨c4, c0, c13⟩
noncomputable def t944 : Tr := ⟨c26, c7, c12⟩
noncomputable def t945 : Tr := ⟨c30, c13, c8⟩
noncomputable def t946 : Tr := ⟨c29, c0, c8⟩
noncomputable def t947 : Tr := ⟨c3, c2, c8⟩
noncomputable def t948 : Tr := ⟨c28, c13, c5⟩
noncomputable def t949 : Tr := ⟨c29, c3, c5⟩
noncomputable def t950 : Tr := ⟨c0, c2, c5⟩
noncomputable def t951 : Tr := ⟨c11, c8, c0⟩
noncomputable def t952 : Tr := ⟨c31, c13, c0⟩
noncomputable def t953 : Tr := ⟨c29, c5, c6⟩
noncomputable def t954 : Tr := ⟨c11, c5, c3⟩
noncomputable def t955 : Tr := ⟨c18, c0, c12⟩
noncomputable def t956 : Tr := ⟨c23, c0, c13⟩
noncomputable def t957 : Tr := ⟨c25, c2, c5⟩
noncomputable def t958 : Tr := ⟨c19, c2, c8⟩
noncomputable def t959 : Tr := ⟨c12, c1, c25⟩
noncomputable def t960 : Tr := ⟨c33, c4, c7⟩
noncomputable def t961 : Tr := ⟨c12, c4, c19⟩
noncomputable def t962 : Tr := ⟨c33, c5, c19⟩
noncomputable def t963 : Tr := ⟨c1, c3, c13⟩
noncomputable def t964 : Tr := ⟨c8, c30, c13⟩
noncomputable def t965 : Tr := ⟨c5, c30, c12⟩
noncomputable def t966 : Tr := ⟨c0, c11, c8⟩
noncomputable def t967 : Tr := ⟨c2, c30, c8⟩
noncomputable def t968 : Tr := ⟨c7, c29, c8⟩
noncomputable def t969 : Tr := ⟨c3, c11, c5⟩
noncomputable def t970 : Tr := ⟨c2, c28, c5⟩
noncomputable def t971 : Tr := ⟨c6, c29, c5⟩
noncomputable def t972 : Tr := ⟨c8, c29, c0⟩
noncomputable def t973 : Tr := ⟨c13, c4, c0⟩
noncomputable def t974 : Tr := ⟨c2, c1, c6⟩
noncomputable def t975 : Tr := ⟨c13, c1, c3⟩
noncomputable def t976 : Tr := ⟨c2, c26, c3⟩
noncomputable def t977 : Tr := ⟨c18, c6, c2⟩
noncomputable def t978 : Tr := ⟨c5, c25, c2⟩
noncomputable def t979 : Tr := ⟨c23, c6, c11⟩
noncomputable def t980 : Tr := ⟨c8, c25, c11⟩
noncomputable def t981 : Tr := ⟨c25, c12, c1⟩
noncomputable def t982 : Tr := ⟨c6, c33, c1⟩
noncomputable def t983 : Tr := ⟨c19, c12, c4⟩
noncomputable def t984 : Tr := ⟨c7, c33, c4⟩
noncomputable def t985 : Tr := ⟨c33, c8, c3⟩
noncomputable def t986 : Tr := ⟨c33, c23, c6⟩
noncomputable def t987 : Tr := ⟨c1, c7, c11⟩
noncomputable def t988 : Tr := ⟨c8, c0, c11⟩
noncomputable def t989 : Tr := ⟨c4, c7, c2⟩
noncomputable def t990 : Tr := ⟨c5, c0, c2⟩
noncomputable def t991 : Tr := ⟨c0, c13, c4⟩
noncomputable def t992 : Tr := ⟨c7, c2, c4⟩
noncomputable def t993 : Tr := ⟨c3, c13, c1⟩
noncomputable def t994 : Tr := ⟨c6, c2, c1⟩
noncomputable def t995 : Tr := ⟨c8, c2, c30⟩
noncomputable def t996 : Tr := ⟨c13, c8, c30⟩
noncomputable def t997 : Tr := ⟨c1, c13, c30⟩
noncomputable def t998 : Tr := ⟨c2, c5, c0⟩
noncomputable def t999 : Tr := ⟨c13, c5, c28⟩
noncomputable def t1000 : Tr := ⟨c2, c4, c28⟩
noncomputable def t1001 : Tr := ⟨c4, c43, c35⟩
noncomputable def t1002 : Tr := ⟨c38, c3, c39⟩
noncomputable def t1003 : Tr := ⟨c38, c43, c13⟩
noncomputable def t1004 : Tr := ⟨c3, c35, c32⟩
noncomputable def t1005 : Tr := ⟨c36, c11, c38⟩
noncomputable def t1006 : Tr := ⟨c36, c35, c8⟩
noncomputable def t1007 : Tr := ⟨c35, c38, c7⟩
noncomputable def t1008 : Tr := ⟨c35, c4, c43⟩
noncomputable def t1009 : Tr := ⟨c13, c32, c36⟩
noncomputable def t1010 : Tr := ⟨c1, c53, c54⟩
noncomputable def t1011 : Tr := ⟨c56, c21, c27⟩
noncomputable def t1012 : Tr := ⟨c55, c0, c57⟩
noncomputable def t1013 : Tr := ⟨c55, c53, c29⟩
noncomputable def t1014 : Tr := ⟨c56, c4, c63⟩
noncomputable def t1015 : Tr := ⟨c0, c54, c60⟩
noncomputable def t1016 : Tr := ⟨c63, c20, c26⟩
noncomputable def t1017 : Tr := ⟨c62, c2, c55⟩
noncomputable def t1018 : Tr := ⟨c62, c54, c31⟩
noncomputable def t1019 : Tr := ⟨c63, c3, c52⟩
noncomputable def t1020 : Tr := ⟨c26, c63, c20⟩
noncomputable def t1021 : Tr := ⟨c54, c55, c30⟩
noncomputable def t1022 : Tr := ⟨c21, c27, c56⟩
noncomputable def t1023 : Tr := ⟨c2, c31, c30⟩
noncomputable def t1024 : Tr := ⟨c54, c1, c53⟩
noncomputable def t1025 : Tr := ⟨c29, c60, c62⟩
noncomputable def t1026 : Tr := ⟨c4, c36, c39⟩
noncomputable def t1027 : Tr := ⟨c41, c37, c22⟩
noncomputable def t1028 : Tr := ⟨c38, c7, c51⟩
noncomputable def t1029 : Tr := ⟨c38, c36, c33⟩
noncomputable def t1030 : Tr := ⟨c41, c5, c61⟩
noncomputable def t1031 : Tr := ⟨c3, c39, c38⟩
noncomputable def t1032 : Tr := ⟨c46, c41, c23⟩
noncomputable def t1033 : Tr := ⟨c36, c13, c58⟩
noncomputable def t1034 : Tr := ⟨c36, c39, c18⟩
noncomputable def t1035 : Tr := ⟨c46, c6, c40⟩
noncomputable def t1036 : Tr := ⟨c5, c61, c41⟩
noncomputable def t1037 : Tr := ⟨c35, c58, c25⟩
noncomputable def t1038 : Tr := ⟨c45, c22, c59⟩
noncomputable def t1039 : Tr := ⟨c11, c18, c25⟩
noncomputable def t1040 : Tr := ⟨c35, c8, c36⟩
noncomputable def t1041 : Tr := ⟨c13, c38, c42⟩
noncomputable def t1042 : Tr := ⟨c1, c34, c44⟩
noncomputable def t1043 : Tr := ⟨c56, c32, c11⟩
noncomputable def t1044 : Tr := ⟨c55, c6, c54⟩
noncomputable def t1045 : Tr := ⟨c55, c34, c2⟩
noncomputable def t1046 : Tr := ⟨c56, c8, c47⟩
noncomputable def t1047 : Tr := ⟨c0, c44, c45⟩
noncomputable def t1048 : Tr := ⟨c63, c43, c4⟩
noncomputable def t1049 : Tr := ⟨c62, c12, c60⟩
noncomputable def t1050 : Tr := ⟨c62, c44, c1⟩
noncomputable def t1051 : Tr := ⟨c63, c7, c21⟩
noncomputable def t1052 : Tr := ⟨c26, c47, c43⟩
noncomputable def t1053 : Tr := ⟨c54, c60, c0⟩
noncomputable def t1054 : Tr := ⟨c54, c5, c34⟩
noncomputable def t1055 : Tr := ⟨c29, c45, c53⟩
noncomputable def t1056 : Tr := ⟨c8, c43, c39⟩
noncomputable def t1057 : Tr := ⟨c59, c45, c22⟩
noncomputable def t1058 : Tr := ⟨c58, c3, c51⟩
noncomputable def t1059 : Tr := ⟨c58, c43, c33⟩
noncomputable def t1060 : Tr := ⟨c59, c1, c61⟩
noncomputable def t1061 : Tr := ⟨c7, c35, c38⟩
noncomputable def t1062 : Tr := ⟨c61, c34, c23⟩
noncomputable def t1063 : Tr := ⟨c42, c11, c58⟩
noncomputable def t1064 : Tr := ⟨c42, c35, c18⟩
noncomputable def t1065 : Tr := ⟨c61, c0, c40⟩
noncomputable def t1066 : Tr := ⟨c23, c46, c41⟩
noncomputable def t1067 : Tr := ⟨c39, c38, c25⟩
noncomputable def t1068 : Tr := ⟨c37, c12, c59⟩
noncomputable def t1069 : Tr := ⟨c13, c8, c25⟩
noncomputable def t1070 : Tr := ⟨c39, c4, c36⟩
noncomputable def t1071 : Tr := ⟨c33, c32, c42⟩
noncomputable def t1072 : Tr := ⟨c5, c53, c44⟩
noncomputable def t1073 : Tr := ⟨c60, c0, c54⟩
noncomputable def t1074 : Tr := ⟨c60, c53, c2⟩
noncomputable def t1075 : Tr := ⟨c6, c54, c45⟩
noncomputable def t1076 : Tr := ⟨c53, c2, c60⟩
noncomputable def t1077 : Tr := ⟨c53, c54, c1⟩
noncomputable def t1078 : Tr := ⟨c4, c63, c43⟩
noncomputable def t1079 : Tr := ⟨c44, c55, c0⟩
noncomputable def t1080 : Tr := ⟨c32, c27, c20⟩
noncomputable def t1081 : Tr := ⟨c12, c31, c0⟩
noncomputable def t1082 : Tr := ⟨c44, c1, c34⟩
noncomputable def t1083 : Tr := ⟨c2, c60, c53⟩
noncomputable def t1084 : Tr := ⟨c8, c36, c35⟩
noncomputable def t1085 : Tr := ⟨c59, c37, c12⟩
noncomputable def t1086 : Tr := ⟨c58, c7, c39⟩
noncomputable def t1087 : Tr := ⟨c58, c36, c13⟩
noncomputable def t1088 : Tr := ⟨c59, c5, c46⟩
noncomputable def t1089 : Tr := ⟨c7, c39, c32⟩
noncomputable def t1090 : Tr := ⟨c61, c41, c5⟩
noncomputable def t1091 : Tr := ⟨c42, c13, c38⟩
noncomputable def t1092 : Tr := ⟨c42, c39, c8⟩
noncomputable def t1093 : Tr := ⟨c61, c6, c37⟩
noncomputable def t1094 : Tr := ⟨c23, c61, c34⟩
noncomputable def t1095 : Tr := ⟨c39, c58, c7⟩
noncomputable def t1096 : Tr := ⟨c37, c22, c41⟩
noncomputable def t1097 : Tr := ⟨c13, c18, c7⟩
noncomputable def t1098 : Tr := ⟨c39, c8, c43⟩
noncomputable def t1099 : Tr := ⟨c33, c38, c36⟩
noncomputable def t1100 : Tr := ⟨c5, c34, c54⟩
noncomputable def t1101 : Tr := ⟨c20, c32, c27⟩
noncomputable def t1102 : Tr := ⟨c60, c6, c57⟩
noncomputable def t1103 : Tr := ⟨c60, c34, c29⟩
noncomputable def t1104 : Tr := ⟨c20, c8, c63⟩
noncomputable def t1105 : Tr := ⟨c6, c44, c60⟩
noncomputable def t1106 : Tr := ⟨c47, c43, c26⟩
noncomputable def t1107 : Tr := ⟨c53, c12, c55⟩
noncomputable def t1108 : Tr := ⟨c53, c44, c31⟩
noncomputable def t1109 : Tr := ⟨c47, c7, c52⟩
noncomputable def t1110 : Tr := ⟨c44, c60, c30⟩
noncomputable def t1111 : Tr := ⟨c32, c11, c56⟩
noncomputable def t1112 : Tr := ⟨c12, c1, c30⟩
noncomputable def t1113 : Tr := ⟨c44, c5, c53⟩
noncomputable def t1114 : Tr := ⟨c2, c45, c62⟩
noncomputable def t1115 : Tr := ⟨c43, c21, c54⟩
noncomputable def t1116 : Tr := ⟨c43, c60, c47⟩
noncomputable def t1117 : Tr := ⟨c31, c0, c29⟩
noncomputable def t1118 : Tr := ⟨c35, c20, c60⟩
noncomputable def t1119 : Tr := ⟨c35, c53, c21⟩
noncomputable def t1120 : Tr := ⟨c30, c2, c31⟩
noncomputable def t1121 : Tr := ⟨c60, c35, c20⟩
noncomputable def t1122 : Tr := ⟨c11, c26, c30⟩
noncomputable def t1123 : Tr := ⟨c21, c54, c43⟩
noncomputable def t1124 : Tr := ⟨c11, c31, c28⟩
noncomputable def t1125 : Tr := ⟨c29, c26, c3⟩
noncomputable def t1126 : Tr := ⟨c26, c6, c11⟩
noncomputable def t1127 : Tr := ⟨c31, c6, c2⟩
noncomputable def t1128 : Tr := ⟨c28, c12, c4⟩
noncomputable def t1129 : Tr := ⟨c30, c12, c1⟩
noncomputable def t1130 : Tr := ⟨c60, c39, c43⟩
noncomputable def t1131 : Tr := ⟨c21, c44, c36⟩
noncomputable def t1132 : Tr := ⟨c29, c4, c7⟩
noncomputable def t1133 : Tr := ⟨c36, c21, c44⟩
noncomputable def t1134 : Tr := ⟨c36, c60, c35⟩
noncomputable def t1135 : Tr := ⟨c39, c20, c45⟩
noncomputable def t1136 : Tr := ⟨c39, c53, c32⟩
noncomputable def t1137 : Tr := ⟨c13, c26, c0⟩
noncomputable def t1138 : Tr := ⟨c32, c54, c36⟩
noncomputable def t1139 : Tr := ⟨c13, c31, c3⟩
noncomputable def t1140 : Tr := ⟨c2, c26, c7⟩
noncomputable def t1141 : Tr := ⟨c36, c32, c54⟩
noncomputable def t1142 : Tr := ⟨c4, c6, c27⟩
noncomputable def t1143 : Tr := ⟨c36, c45, c47⟩
noncomputable def t1144 : Tr := ⟨c1, c6, c29⟩
noncomputable def t1145 : Tr := ⟨c39, c43, c60⟩
noncomputable def t1146 : Tr := ⟨c3, c12, c26⟩
noncomputable def t1147 : Tr := ⟨c39, c34, c21⟩
noncomputable def t1148 : Tr := ⟨c0, c12, c31⟩
noncomputable def t1149 : Tr := ⟨c45, c39, c20⟩
noncomputable def t1150 : Tr := ⟨c13, c4, c30⟩
noncomputable def t1151 : Tr := ⟨c13, c1, c28⟩
noncomputable def t1152 : Tr := ⟨c8, c43, c35⟩
noncomputable def t1153 : Tr := ⟨c38, c7, c39⟩
noncomputable def t1154 : Tr := ⟨c32, c43, c13⟩
noncomputable def t1155 : Tr := ⟨c7, c35, c32⟩
noncomputable def t1156 : Tr := ⟨c36, c13, c38⟩
noncomputable def t1157 : Tr := ⟨c43, c35, c8⟩
noncomputable def t1158 : Tr := ⟨c35, c38, c3⟩
noncomputable def t1159 : Tr := ⟨c35, c4, c36⟩
noncomputable def t1160 : Tr := ⟨c11, c38, c43⟩
noncomputable def t1161 : Tr := ⟨c31, c53, c54⟩
noncomputable def t1162 : Tr := ⟨c20, c52, c27⟩
noncomputable def t1163 : Tr := ⟨c55, c30, c57⟩
noncomputable def t1164 : Tr := ⟨c60, c53, c29⟩
noncomputable def t1165 : Tr := ⟨c20, c26, c63⟩
noncomputable def t1166 : Tr := ⟨c30, c54, c60⟩
noncomputable def t1167 : Tr := ⟨c47, c56, c26⟩
noncomputable def t1168 : Tr := ⟨c62, c29, c55⟩
noncomputable def t1169 : Tr := ⟨c53, c54, c31⟩
noncomputable def t1170 : Tr := ⟨c47, c28, c52⟩
noncomputable def t1171 : Tr := ⟨c26, c47, c56⟩
noncomputable def t1172 : Tr := ⟨c54, c55, c0⟩
noncomputable def t1173 : Tr := ⟨c52, c27, c20⟩
noncomputable def t1174 : Tr := ⟨c54, c1, c62⟩
noncomputable def t1175 : Tr := ⟨c2, c55, c53⟩
noncomputable def t1176 : Tr := ⟨c8, c36, c39⟩
noncomputable def t1177 : Tr := ⟨c34, c40, c22⟩
noncomputable def t1178 : Tr := ⟨c38, c25, c51⟩
noncomputable def t1179 : Tr := ⟨c32, c36, c33⟩
noncomputable def t1180 : Tr := ⟨c34, c23, c61⟩
noncomputable def t1181 : Tr := ⟨c7, c39, c38⟩
noncomputable def t1182 : Tr := ⟨c44, c59, c23⟩
noncomputable def t1183 : Tr := ⟨c36, c33, c58⟩
noncomputable def t1184 : Tr := ⟨c43, c39, c18⟩
noncomputable def t1185 : Tr := ⟨c44, c19, c40⟩
noncomputable def t1186 : Tr := ⟨c5, c46, c59⟩
noncomputable def t1187 : Tr := ⟨c35, c58, c7⟩
noncomputable def t1188 : Tr := ⟨c13, c18, c25⟩
noncomputable def t1189 : Tr := ⟨c35, c8, c42⟩
noncomputable def t1190 : Tr := ⟨c11, c58, c36⟩
noncomputable def t1191 : Tr := ⟨c31, c34, c44⟩
noncomputable def t1192 : Tr := ⟨c55, c0, c54⟩
noncomputable def t1193 : Tr := ⟨c60, c34, c2⟩
noncomputable def t1194 : Tr := ⟨c30, c44, c45⟩
noncomputable def t1195 : Tr := ⟨c62, c2, c60⟩
noncomputable def t1196 : Tr := ⟨c53, c44, c1⟩
noncomputable def t1197 : Tr := ⟨c26, c35, c20⟩
noncomputable def t1198 : Tr := ⟨c54, c60, c6⟩
noncomputable def t1199 : Tr := ⟨c52, c11, c43⟩
noncomputable def t1200 : Tr := ⟨c54, c5, c53⟩
noncomputable def t1201 : Tr := ⟨c2, c60, c34⟩
noncomputable def t1202 : Tr := ⟨c18, c43, c39⟩
noncomputable def t1203 : Tr := ⟨c58, c7, c51⟩
noncomputable def t1204 : Tr := ⟨c38, c43, c33⟩
noncomputable def t1205 : Tr := ⟨c25, c35, c38⟩
noncomputable def t1206 : Tr := ⟨c42, c13, c58⟩
noncomputable def t1207 : Tr := ⟨c36, c35, c18⟩
noncomputable def t1208 : Tr := ⟨c23, c44, c59⟩
noncomputable def t1209 : Tr := ⟨c39, c38, c7⟩
noncomputable def t1210 : Tr := ⟨c40, c12, c41⟩
noncomputable def t1211 : Tr := ⟨c33, c8, c25⟩
noncomputable def t1212 : Tr := ⟨c39, c4, c42⟩
noncomputable def t1213 : Tr := ⟨c13, c38, c36⟩
noncomputable def t1214 : Tr := ⟨c1, c53, c44⟩
noncomputable def t1215 : Tr := ⟨c43, c52, c11⟩
noncomputable def t1216 : Tr := ⟨c60, c30, c54⟩
noncomputable def t1217 : Tr := ⟨c45, c53, c2⟩
noncomputable def t1218 : Tr := ⟨c43, c26, c47⟩
noncomputable def t1219 : Tr := ⟨c0, c54, c45⟩
noncomputable def t1220 : Tr := ⟨c35, c56, c4⟩
noncomputable def t1221 : Tr := ⟨c53, c29, c60⟩
noncomputable def t1222 : Tr := ⟨c34, c54, c1⟩
noncomputable def t1223 : Tr := ⟨c35, c28, c21⟩
noncomputable def t1224 : Tr := ⟨c44, c55, c6⟩
noncomputable def t1225 : Tr := ⟨c21, c27, c43⟩
noncomputable def t1226 : Tr := ⟨c2, c31, c0⟩
noncomputable def t1227 : Tr := ⟨c44, c1, c53⟩
noncomputable def t1228 : Tr := ⟨c12, c55, c34⟩
noncomputable def t1229 : Tr := ⟨c18, c36, c35⟩
noncomputable def t1230 : Tr := ⟨c41, c40, c12⟩
noncomputable def t1231 : Tr := ⟨c58, c25, c39⟩
noncomputable def t1232 : Tr := ⟨c38, c36, c13⟩
noncomputable def t1233 : Tr := ⟨c41, c23, c46⟩
noncomputable def t1234 : Tr := ⟨c25, c39, c32⟩
noncomputable def t1235 : Tr := ⟨c46, c59, c5⟩
noncomputable def t1236 : Tr := ⟨c42, c33, c38⟩
noncomputable def t1237 : Tr := ⟨c36, c39, c8⟩
noncomputable def t1238 : Tr := ⟨c46, c19, c37⟩
noncomputable def t1239 : Tr := ⟨c39, c58, c3⟩
noncomputable def t1240 : Tr := ⟨c40, c22, c34⟩
noncomputable def t1241 : Tr := ⟨c33, c18, c7⟩
noncomputable def t1242 : Tr := ⟨c39, c8, c36⟩
noncomputable def t1243 : Tr := ⟨c13, c58, c43⟩
noncomputable def t1244 : Tr := ⟨c1, c34, c54⟩
noncomputable def t1245 : Tr := ⟨c43, c21, c27⟩
noncomputable def t1246 : Tr := ⟨c60, c0, c57⟩
noncomputable def t1247 : Tr := ⟨c45, c34, c29⟩
noncomputable def t1248 : Tr := ⟨c43, c4, c63⟩
noncomputable def t1249 : Tr := ⟨c0, c44, c60⟩
noncomputable def t1250 : Tr := ⟨c35, c20, c26⟩
noncomputable def t1251 : Tr := ⟨c53, c2, c55⟩
noncomputable def t1252 : Tr := ⟨c34, c44, c31⟩
noncomputable def t1253 : Tr := ⟨c35, c3, c52⟩
noncomputable def t1254 : Tr := ⟨c4, c35, c56⟩
noncomputable def t1255 : Tr := ⟨c44, c60, c0⟩
noncomputable def t1256 : Tr := ⟨c2, c1, c30⟩
noncomputable def t1257 : Tr := ⟨c44, c5, c62⟩
noncomputable def t1258 : Tr := ⟨c12, c60, c53⟩
noncomputable def t1259 : Tr := ⟨c91, c92, c93⟩
noncomputable def t1260 : Tr := ⟨c41, c45, c44⟩
noncomputable def t1261 : Tr := ⟨c36, c21, c54⟩
noncomputable def t1262 : Tr := ⟨c41, c32, c35⟩
noncomputable def t1263 : Tr := ⟨c36, c60, c47⟩
noncomputable def t1264 : Tr := ⟨c46, c34, c45⟩
noncomputable def t1265 : Tr := ⟨c39, c20, c60⟩
noncomputable def t1266 : Tr := ⟨c3, c2, c26⟩
noncomputable def t1267 : Tr := ⟨c46, c43, c32⟩
noncomputable def t1268 : Tr := ⟨c39, c53, c21⟩
noncomputable def t1269 : Tr := ⟨c0, c2, c31⟩
noncomputable def t1270 : Tr := ⟨c37, c44, c34⟩
noncomputable def t1271 : Tr := ⟨c45, c35, c20⟩
noncomputable def t1272 : Tr := ⟨c13, c26, c30⟩
noncomputable def t1273 : Tr := ⟨c32, c54, c43⟩
noncomputable def t1274 : Tr := ⟨c38, c35, c34⟩
noncomputable def t1275 : Tr := ⟨c13, c31, c28⟩
noncomputable def t1276 : Tr := ⟨c41, c37, c46⟩
noncomputable def t1277 : Tr := ⟨c36, c32, c44⟩
noncomputable def t1278 : Tr := ⟨c41, c38, c39⟩
noncomputable def t1279 : Tr := ⟨c36, c45, c35⟩
noncomputable def t1280 : Tr := ⟨c46, c41, c37⟩
noncomputable def t1281 : Tr := ⟨c39, c43, c45⟩
noncomputable def t1282 : Tr := ⟨c46, c36, c38⟩
noncomputable def t1283 : Tr := ⟨c39, c34, c32⟩
noncomputable def t1284 : Tr := ⟨c37, c46, c41⟩
noncomputable def t1285 : Tr := ⟨c45, c39, c43⟩
noncomputable def t1286 : Tr := ⟨c32, c44, c36⟩
noncomputable def t1287 : Tr := ⟨c38, c39, c41⟩
noncomputable def t1288 : Tr := ⟨c2, c4, c7⟩
noncomputable def t1289 : Tr := ⟨c59, c45, c46⟩
noncomputable def t1290 : Tr := ⟨c42, c21, c44⟩
noncomputable def t1291 : Tr := ⟨c59, c32, c39⟩
noncomputable def t1292 : Tr := ⟨c42, c60, c35⟩
noncomputable def t1293 : Tr := ⟨c61, c34, c37⟩
noncomputable def t1294 : Tr := ⟨c51, c20, c45⟩
noncomputable def t1295 : Tr := ⟨c61, c43, c38⟩
noncomputable def t1296 : Tr := ⟨c51, c53, c32⟩
noncomputable def t1297 : Tr := ⟨c40, c44, c41⟩
noncomputable def t1298 : Tr := ⟨c37, c35, c43⟩
noncomputable def t1299 : Tr := ⟨c33, c26, c0⟩
noncomputable def t1300 : Tr := ⟨c38, c54, c36⟩
noncomputable def t1301 : Tr := ⟨c58, c35, c41⟩
noncomputable def t1302 : Tr := ⟨c33, c31, c3⟩
noncomputable def t1303 : Tr := ⟨c12, c26, c7⟩
noncomputable def t1304 : Tr := ⟨c59, c37, c44⟩
noncomputable def t1305 : Tr := ⟨c42, c32, c54⟩
noncomputable def t1306 : Tr := ⟨c8, c6, c27⟩
noncomputable def t1307 : Tr := ⟨c59, c38, c35⟩
noncomputable def t1308 : Tr := ⟨c42, c45, c47⟩
noncomputable def t1309 : Tr := ⟨c61, c41, c45⟩
noncomputable def t1310 : Tr := ⟨c51, c43, c60⟩
noncomputable def t1311 : Tr := ⟨c7, c12, c26⟩
noncomputable def t1312 : Tr := ⟨c61, c36, c32⟩
noncomputable def t1313 : Tr := ⟨c51, c34, c21⟩
noncomputable def t1314 : Tr := ⟨c6, c12, c31⟩
noncomputable def t1315 : Tr := ⟨c40, c46, c34⟩
noncomputable def t1316 : Tr := ⟨c37, c39, c20⟩
noncomputable def t1317 : Tr := ⟨c33, c4, c30⟩
noncomputable def t1318 : Tr := ⟨c38, c44, c43⟩
noncomputable def t1319 : Tr := ⟨c58, c39, c34⟩
noncomputable def t1320 : Tr := ⟨c33, c1, c28⟩
noncomputable def t1321 : Tr := ⟨c12, c4, c3⟩
noncomputable def t1322 : Tr := ⟨c20, c57, c60⟩
noncomputable def t1323 : Tr := ⟨c53, c47, c55⟩
noncomputable def t1324 : Tr := ⟨c53, c57, c52⟩
noncomputable def t1325 : Tr := ⟨c29, c3, c1⟩
noncomputable def t1326 : Tr := ⟨c20, c47, c21⟩
noncomputable def t1327 : Tr := ⟨c57, c60, c20⟩
noncomputable def t1328 : Tr := ⟨c47, c21, c20⟩
noncomputable def t1329 : Tr := ⟨c57, c52, c53⟩
noncomputable def t1330 : Tr := ⟨c63, c60, c62⟩
noncomputable def t1331 : Tr := ⟨c43, c54, c45⟩
noncomputable def t1332 : Tr := ⟨c2, c6, c4⟩
noncomputable def t1333 : Tr := ⟨c34, c35, c60⟩
noncomputable def t1334 : Tr := ⟨c34, c54, c21⟩
noncomputable def t1335 : Tr := ⟨c43, c35, c32⟩
noncomputable def t1336 : Tr := ⟨c4, c2, c6⟩
noncomputable def t1337 : Tr := ⟨c54, c45, c43⟩
noncomputable def t1338 : Tr := ⟨c54, c21, c34⟩
noncomputable def t1339 : Tr := ⟨c47, c45, c53⟩
noncomputable def t1340 : Tr := ⟨c0, c1, c47⟩
noncomputable def t1341 : Tr := ⟨c44, c0, c4⟩
noncomputable def t1342 : Tr := ⟨c9, c0, c47⟩
noncomputable def t1343 : Tr := ⟨c20, c1, c2⟩
noncomputable def t1344 : Tr := ⟨c9, c0, c87⟩
noncomputable def t1345 : Tr := ⟨c1, c3, c47⟩
noncomputable def t1346 : Tr := ⟨c0, c47, c4⟩
noncomputable def t1347 : Tr := ⟨c9, c0, c94⟩
noncomputable def t1348 : Tr := ⟨c0, c21, c47⟩
noncomputable def t1349 : Tr := ⟨c52, c20, c11⟩
noncomputable def t1350 : Tr := ⟨c34, c4, c47⟩
noncomputable def t1351 : Tr := ⟨c56, c21, c47⟩
noncomputable def t1352 : Tr := ⟨c9, c0, c95⟩
noncomputable def t1353 : Tr := ⟨c43, c21, c50⟩
noncomputable def t1354 : Tr := ⟨c20, c1, c47⟩
noncomputable def t1355 : Tr := ⟨c0, c31, c2⟩
noncomputable def t1356 : Tr := ⟨c43, c31, c35⟩
noncomputable def t1357 : Tr := ⟨c31, c34, c2⟩
noncomputable def t1358 : Tr := ⟨c0, c21, c2⟩
noncomputable def t1359 : Tr := ⟨c0, c5, c2⟩
noncomputable def t1360 : Tr := ⟨c52, c20, c44⟩
noncomputable def t1361 : Tr := ⟨c9, c0, c96⟩
noncomputable def t1362 : Tr := ⟨c21, c53, c2⟩
noncomputable def t1363 : Tr := ⟨c48, c92, c50⟩
noncomputable def t1364 : Tr := ⟨c21, c53, c50⟩
noncomputable def t1365 : Tr := ⟨c20, c31, c47⟩
noncomputable def t1366 : Tr := ⟨c20, c45, c97⟩
noncomputable def t1367 : Tr := ⟨c0, c4, c44⟩
noncomputable def t1368 : Tr := ⟨c45, c53, c44⟩
noncomputable def t1369 : Tr := ⟨c45, c53, c11⟩
noncomputable def t1370 : Tr := ⟨c56, c21, c98⟩
noncomputable def t1371 : Tr := ⟨c56, c21, c2⟩
noncomputable def t1372 : Tr := ⟨c4, c9, c47⟩
noncomputable def t1373 : Tr := ⟨c91, c49, c93⟩
noncomputable def t1374 : Tr := ⟨c48, c99, c50⟩

/-- the lattices of the centerings -/
noncomputable def lat : Table.Centering → Setting
  | .primitive2d => ⟨chars! "", 2, t0, q! "24 0 0 0 0 24 0 0 0 0 24 0", trs! "0", gens! "", words! "", false⟩
  | .centered2d => ⟨chars! "", 2, t0, q! "24 0 0 0 0 24 0 0 0 0 24 0", trs! "0 4", gens! "4 1 1", words! ";0", false⟩
  | .primitive => ⟨chars! "", 3, t0, q! "24 0 0 0 0 24 0 0 0 0 24 0", trs! "0", gens! "", words! "", false⟩
  | .faceCentered => ⟨chars! "", 3, t0, q! "24 0 0 0 0 24 0 0 0 0 24 0", trs! "0 35 42 4", gens! "35 33751041 1;42 16777986 2", words! ";0;1;1 0", false⟩
  | .bodyCentered => ⟨chars! "", 3, t0, q! "24 0 0 0 0 24 0 0 0 0 24 0", trs! "0 38", gens! "38 1 1", words! ";0", false⟩
  | .rhombohedral => ⟨chars! "", 3, t0, q! "24 0 0 0 0 24 0 0 0 0 24 0", trs! "0 383 380", gens! "383 513 2", words! ";0;0 0", false⟩
  | .aFaceCentered => ⟨chars! "", 3, t0, q! "24 0 0 0 0 24 0 0 0 0 24 0", trs! "0 35", gens! "35 1 1", words! ";0", false⟩
  | .bFaceCentered => ⟨chars! "", 3, t0, q! "24 0 0 0 0 24 0 0 0 0 24 0", trs! "0 42", gens! "42 1 1", words! ";0", false⟩
  | .cFaceCentered => ⟨chars! "", 3, t0, q! "24 0 0 0 0 24 0 0 0 0 24 0", trs! "0 4", gens! "4 1 1", words! ";0", false⟩

end Systre.Sg.Data
