import Verif.NormCheckLemmas
import Verif.NormCertSimplex3P0
import Verif.NormCertSimplex3P1
import Verif.NormCertSimplex3P2
import Verif.NormCertSimplex3P3
/-! Generated by tools/normcert/gen.py: a certificate for the checker `Verif.NormCheck`. -/
namespace FastNoise.NormCheck.Simplex3
open FastNoise.RangeCheck (Tree)

def tree : Tree := (.cut 0 (.cut 1 (.cut 2 (.cut 0 t0 (.cut 1 (.cut 2 (.cut 0 t1 (.cut 1 (.cut 2 (.cut 0 t2 (.cut 1 (.cut 2 (.cut 0 t3 (.cut 1 (.cut 2 (.cut 0 t4 (.cut 1 (.cut 2 t5 t6) t7)) t8) t9)) t10) t11)) t12) t13)) t14) (.cut 2 t15 (.cut 0 t16 (.cut 1 t17 (.cut 2 t18 (.cut 0 t19 (.cut 1 t20 (.cut 2 t21 (.cut 0 t22 (.cut 1 t23 (.cut 2 t24 (.cut 0 t25 (.cut 1 t26 (.cut 2 t27 (.cut 0 t28 (.cut 1 t29 (.cut 2 t30 (.cut 0 t31 (.cut 1 t32 (.cut 2 t33 (.cut 0 t34 t35)))))))))))))))))))))) (.cut 0 t36 t37)) (.cut 2 t38 t39)) (.cut 1 (.cut 2 (.cut 0 (.cut 1 (.cut 2 (.cut 0 (.cut 1 (.cut 2 (.cut 0 (.cut 1 (.cut 2 (.cut 0 (.cut 1 (.cut 2 (.cut 0 (.cut 1 (.cut 2 (.cut 0 (.cut 1 (.cut 2 (.cut 0 t40 t41) t42) t43) t44) t45) t46) t47) t48) t49) t50) t51) t52) t53) t54) t55) t56) t57) (.cut 2 t58 (.cut 0 (.cut 1 t59 (.cut 2 t60 (.cut 0 (.cut 1 t61 (.cut 2 t62 (.cut 0 (.cut 1 t63 t64) t65))) t66))) t67))) (.cut 1 t68 (.cut 2 (.cut 0 t69 (.cut 1 t70 (.cut 2 (.cut 0 t71 (.cut 1 t72 (.cut 2 (.cut 0 t73 (.cut 1 t74 (.cut 2 (.cut 0 t75 (.cut 1 t76 (.cut 2 (.cut 0 t77 (.cut 1 t78 (.cut 2 (.cut 0 t79 t80) t81))) t82))) t83))) t84))) t85))) t86))) (.cut 0 t87 t88)) (.cut 2 (.cut 0 (.cut 1 (.cut 2 t89 (.cut 0 (.cut 1 (.cut 2 t90 (.cut 0 (.cut 1 (.cut 2 t91 (.cut 0 (.cut 1 (.cut 2 t92 t93) t94) t95)) t96) t97)) t98) t99)) t100) (.cut 1 (.cut 2 (.cut 0 t101 (.cut 1 (.cut 2 (.cut 0 t102 (.cut 1 (.cut 2 (.cut 0 t103 (.cut 1 (.cut 2 (.cut 0 t104 (.cut 1 t105 t106)) t107) t108)) t109) t110)) t111) t112)) t113) t114)) t115)))
theorem checked : check par tree [10485760, 10485760, 10485760] [10485760, 10485760, 10485760] st = true := (check_cut (c1 := [5242880, 10485760, 10485760]) (c2 := [15728640, 10485760, 10485760]) (h := [5242880, 10485760, 10485760]) (fun _ => rfl) (check_cut (c1 := [5242880, 5242880, 10485760]) (c2 := [5242880, 15728640, 10485760]) (h := [5242880, 5242880, 10485760]) (fun _ => rfl) (check_cut (c1 := [5242880, 5242880, 5242880]) (c2 := [5242880, 5242880, 15728640]) (h := [5242880, 5242880, 5242880]) (fun _ => rfl) (check_cut (c1 := [2621440, 5242880, 5242880]) (c2 := [7864320, 5242880, 5242880]) (h := [2621440, 5242880, 5242880]) (fun _ => rfl) h0 (check_cut (c1 := [7864320, 2621440, 5242880]) (c2 := [7864320, 7864320, 5242880]) (h := [2621440, 2621440, 5242880]) (fun _ => rfl) (check_cut (c1 := [7864320, 2621440, 2621440]) (c2 := [7864320, 2621440, 7864320]) (h := [2621440, 2621440, 2621440]) (fun _ => rfl) (check_cut (c1 := [6553600, 2621440, 2621440]) (c2 := [9175040, 2621440, 2621440]) (h := [1310720, 2621440, 2621440]) (fun _ => rfl) h1 (check_cut (c1 := [9175040, 1310720, 2621440]) (c2 := [9175040, 3932160, 2621440]) (h := [1310720, 1310720, 2621440]) (fun _ => rfl) (check_cut (c1 := [9175040, 1310720, 1310720]) (c2 := [9175040, 1310720, 3932160]) (h := [1310720, 1310720, 1310720]) (fun _ => rfl) (check_cut (c1 := [8519680, 1310720, 1310720]) (c2 := [9830400, 1310720, 1310720]) (h := [655360, 1310720, 1310720]) (fun _ => rfl) h2 (check_cut (c1 := [9830400, 655360, 1310720]) (c2 := [9830400, 1966080, 1310720]) (h := [655360, 655360, 1310720]) (fun _ => rfl) (check_cut (c1 := [9830400, 655360, 655360]) (c2 := [9830400, 655360, 1966080]) (h := [655360, 655360, 655360]) (fun _ => rfl) (check_cut (c1 := [9502720, 655360, 655360]) (c2 := [10158080, 655360, 655360]) (h := [327680, 655360, 655360]) (fun _ => rfl) h3 (check_cut (c1 := [10158080, 327680, 655360]) (c2 := [10158080, 983040, 655360]) (h := [327680, 327680, 655360]) (fun _ => rfl) (check_cut (c1 := [10158080, 327680, 327680]) (c2 := [10158080, 327680, 983040]) (h := [327680, 327680, 327680]) (fun _ => rfl) (check_cut (c1 := [9994240, 327680, 327680]) (c2 := [10321920, 327680, 327680]) (h := [163840, 327680, 327680]) (fun _ => rfl) h4 (check_cut (c1 := [10321920, 163840, 327680]) (c2 := [10321920, 491520, 327680]) (h := [163840, 163840, 327680]) (fun _ => rfl) (check_cut (c1 := [10321920, 163840, 163840]) (c2 := [10321920, 163840, 491520]) (h := [163840, 163840, 163840]) (fun _ => rfl) h5 h6) h7)) h8) h9)) h10) h11)) h12) h13)) h14) (check_cut (c1 := [7864320, 7864320, 2621440]) (c2 := [7864320, 7864320, 7864320]) (h := [2621440, 2621440, 2621440]) (fun _ => rfl) h15 (check_cut (c1 := [6553600, 7864320, 7864320]) (c2 := [9175040, 7864320, 7864320]) (h := [1310720, 2621440, 2621440]) (fun _ => rfl) h16 (check_cut (c1 := [9175040, 6553600, 7864320]) (c2 := [9175040, 9175040, 7864320]) (h := [1310720, 1310720, 2621440]) (fun _ => rfl) h17 (check_cut (c1 := [9175040, 9175040, 6553600]) (c2 := [9175040, 9175040, 9175040]) (h := [1310720, 1310720, 1310720]) (fun _ => rfl) h18 (check_cut (c1 := [8519680, 9175040, 9175040]) (c2 := [9830400, 9175040, 9175040]) (h := [655360, 1310720, 1310720]) (fun _ => rfl) h19 (check_cut (c1 := [9830400, 8519680, 9175040]) (c2 := [9830400, 9830400, 9175040]) (h := [655360, 655360, 1310720]) (fun _ => rfl) h20 (check_cut (c1 := [9830400, 9830400, 8519680]) (c2 := [9830400, 9830400, 9830400]) (h := [655360, 655360, 655360]) (fun _ => rfl) h21 (check_cut (c1 := [9502720, 9830400, 9830400]) (c2 := [10158080, 9830400, 9830400]) (h := [327680, 655360, 655360]) (fun _ => rfl) h22 (check_cut (c1 := [10158080, 9502720, 9830400]) (c2 := [10158080, 10158080, 9830400]) (h := [327680, 327680, 655360]) (fun _ => rfl) h23 (check_cut (c1 := [10158080, 10158080, 9502720]) (c2 := [10158080, 10158080, 10158080]) (h := [327680, 327680, 327680]) (fun _ => rfl) h24 (check_cut (c1 := [9994240, 10158080, 10158080]) (c2 := [10321920, 10158080, 10158080]) (h := [163840, 327680, 327680]) (fun _ => rfl) h25 (check_cut (c1 := [10321920, 9994240, 10158080]) (c2 := [10321920, 10321920, 10158080]) (h := [163840, 163840, 327680]) (fun _ => rfl) h26 (check_cut (c1 := [10321920, 10321920, 9994240]) (c2 := [10321920, 10321920, 10321920]) (h := [163840, 163840, 163840]) (fun _ => rfl) h27 (check_cut (c1 := [10240000, 10321920, 10321920]) (c2 := [10403840, 10321920, 10321920]) (h := [81920, 163840, 163840]) (fun _ => rfl) h28 (check_cut (c1 := [10403840, 10240000, 10321920]) (c2 := [10403840, 10403840, 10321920]) (h := [81920, 81920, 163840]) (fun _ => rfl) h29 (check_cut (c1 := [10403840, 10403840, 10240000]) (c2 := [10403840, 10403840, 10403840]) (h := [81920, 81920, 81920]) (fun _ => rfl) h30 (check_cut (c1 := [10362880, 10403840, 10403840]) (c2 := [10444800, 10403840, 10403840]) (h := [40960, 81920, 81920]) (fun _ => rfl) h31 (check_cut (c1 := [10444800, 10362880, 10403840]) (c2 := [10444800, 10444800, 10403840]) (h := [40960, 40960, 81920]) (fun _ => rfl) h32 (check_cut (c1 := [10444800, 10444800, 10362880]) (c2 := [10444800, 10444800, 10444800]) (h := [40960, 40960, 40960]) (fun _ => rfl) h33 (check_cut (c1 := [10424320, 10444800, 10444800]) (c2 := [10465280, 10444800, 10444800]) (h := [20480, 40960, 40960]) (fun _ => rfl) h34 h35)))))))))))))))))))))) (check_cut (c1 := [2621440, 5242880, 15728640]) (c2 := [7864320, 5242880, 15728640]) (h := [2621440, 5242880, 5242880]) (fun _ => rfl) h36 h37)) (check_cut (c1 := [5242880, 15728640, 5242880]) (c2 := [5242880, 15728640, 15728640]) (h := [5242880, 5242880, 5242880]) (fun _ => rfl) h38 h39)) (check_cut (c1 := [15728640, 5242880, 10485760]) (c2 := [15728640, 15728640, 10485760]) (h := [5242880, 5242880, 10485760]) (fun _ => rfl) (check_cut (c1 := [15728640, 5242880, 5242880]) (c2 := [15728640, 5242880, 15728640]) (h := [5242880, 5242880, 5242880]) (fun _ => rfl) (check_cut (c1 := [13107200, 5242880, 5242880]) (c2 := [18350080, 5242880, 5242880]) (h := [2621440, 5242880, 5242880]) (fun _ => rfl) (check_cut (c1 := [13107200, 2621440, 5242880]) (c2 := [13107200, 7864320, 5242880]) (h := [2621440, 2621440, 5242880]) (fun _ => rfl) (check_cut (c1 := [13107200, 2621440, 2621440]) (c2 := [13107200, 2621440, 7864320]) (h := [2621440, 2621440, 2621440]) (fun _ => rfl) (check_cut (c1 := [11796480, 2621440, 2621440]) (c2 := [14417920, 2621440, 2621440]) (h := [1310720, 2621440, 2621440]) (fun _ => rfl) (check_cut (c1 := [11796480, 1310720, 2621440]) (c2 := [11796480, 3932160, 2621440]) (h := [1310720, 1310720, 2621440]) (fun _ => rfl) (check_cut (c1 := [11796480, 1310720, 1310720]) (c2 := [11796480, 1310720, 3932160]) (h := [1310720, 1310720, 1310720]) (fun _ => rfl) (check_cut (c1 := [11141120, 1310720, 1310720]) (c2 := [12451840, 1310720, 1310720]) (h := [655360, 1310720, 1310720]) (fun _ => rfl) (check_cut (c1 := [11141120, 655360, 1310720]) (c2 := [11141120, 1966080, 1310720]) (h := [655360, 655360, 1310720]) (fun _ => rfl) (check_cut (c1 := [11141120, 655360, 655360]) (c2 := [11141120, 655360, 1966080]) (h := [655360, 655360, 655360]) (fun _ => rfl) (check_cut (c1 := [10813440, 655360, 655360]) (c2 := [11468800, 655360, 655360]) (h := [327680, 655360, 655360]) (fun _ => rfl) (check_cut (c1 := [10813440, 327680, 655360]) (c2 := [10813440, 983040, 655360]) (h := [327680, 327680, 655360]) (fun _ => rfl) (check_cut (c1 := [10813440, 327680, 327680]) (c2 := [10813440, 327680, 983040]) (h := [327680, 327680, 327680]) (fun _ => rfl) (check_cut (c1 := [10649600, 327680, 327680]) (c2 := [10977280, 327680, 327680]) (h := [163840, 327680, 327680]) (fun _ => rfl) (check_cut (c1 := [10649600, 163840, 327680]) (c2 := [10649600, 491520, 327680]) (h := [163840, 163840, 327680]) (fun _ => rfl) (check_cut (c1 := [10649600, 163840, 163840]) (c2 := [10649600, 163840, 491520]) (h := [163840, 163840, 163840]) (fun _ => rfl) (check_cut (c1 := [10567680, 163840, 163840]) (c2 := [10731520, 163840, 163840]) (h := [81920, 163840, 163840]) (fun _ => rfl) (check_cut (c1 := [10567680, 81920, 163840]) (c2 := [10567680, 245760, 163840]) (h := [81920, 81920, 163840]) (fun _ => rfl) (check_cut (c1 := [10567680, 81920, 81920]) (c2 := [10567680, 81920, 245760]) (h := [81920, 81920, 81920]) (fun _ => rfl) (check_cut (c1 := [10526720, 81920, 81920]) (c2 := [10608640, 81920, 81920]) (h := [40960, 81920, 81920]) (fun _ => rfl) h40 h41) h42) h43) h44) h45) h46) h47) h48) h49) h50) h51) h52) h53) h54) h55) h56) h57) (check_cut (c1 := [13107200, 7864320, 2621440]) (c2 := [13107200, 7864320, 7864320]) (h := [2621440, 2621440, 2621440]) (fun _ => rfl) h58 (check_cut (c1 := [11796480, 7864320, 7864320]) (c2 := [14417920, 7864320, 7864320]) (h := [1310720, 2621440, 2621440]) (fun _ => rfl) (check_cut (c1 := [11796480, 6553600, 7864320]) (c2 := [11796480, 9175040, 7864320]) (h := [1310720, 1310720, 2621440]) (fun _ => rfl) h59 (check_cut (c1 := [11796480, 9175040, 6553600]) (c2 := [11796480, 9175040, 9175040]) (h := [1310720, 1310720, 1310720]) (fun _ => rfl) h60 (check_cut (c1 := [11141120, 9175040, 9175040]) (c2 := [12451840, 9175040, 9175040]) (h := [655360, 1310720, 1310720]) (fun _ => rfl) (check_cut (c1 := [11141120, 8519680, 9175040]) (c2 := [11141120, 9830400, 9175040]) (h := [655360, 655360, 1310720]) (fun _ => rfl) h61 (check_cut (c1 := [11141120, 9830400, 8519680]) (c2 := [11141120, 9830400, 9830400]) (h := [655360, 655360, 655360]) (fun _ => rfl) h62 (check_cut (c1 := [10813440, 9830400, 9830400]) (c2 := [11468800, 9830400, 9830400]) (h := [327680, 655360, 655360]) (fun _ => rfl) (check_cut (c1 := [10813440, 9502720, 9830400]) (c2 := [10813440, 10158080, 9830400]) (h := [327680, 327680, 655360]) (fun _ => rfl) h63 h64) h65))) h66))) h67))) (check_cut (c1 := [18350080, 2621440, 5242880]) (c2 := [18350080, 7864320, 5242880]) (h := [2621440, 2621440, 5242880]) (fun _ => rfl) h68 (check_cut (c1 := [18350080, 7864320, 2621440]) (c2 := [18350080, 7864320, 7864320]) (h := [2621440, 2621440, 2621440]) (fun _ => rfl) (check_cut (c1 := [17039360, 7864320, 2621440]) (c2 := [19660800, 7864320, 2621440]) (h := [1310720, 2621440, 2621440]) (fun _ => rfl) h69 (check_cut (c1 := [19660800, 6553600, 2621440]) (c2 := [19660800, 9175040, 2621440]) (h := [1310720, 1310720, 2621440]) (fun _ => rfl) h70 (check_cut (c1 := [19660800, 9175040, 1310720]) (c2 := [19660800, 9175040, 3932160]) (h := [1310720, 1310720, 1310720]) (fun _ => rfl) (check_cut (c1 := [19005440, 9175040, 1310720]) (c2 := [20316160, 9175040, 1310720]) (h := [655360, 1310720, 1310720]) (fun _ => rfl) h71 (check_cut (c1 := [20316160, 8519680, 1310720]) (c2 := [20316160, 9830400, 1310720]) (h := [655360, 655360, 1310720]) (fun _ => rfl) h72 (check_cut (c1 := [20316160, 9830400, 655360]) (c2 := [20316160, 9830400, 1966080]) (h := [655360, 655360, 655360]) (fun _ => rfl) (check_cut (c1 := [19988480, 9830400, 655360]) (c2 := [20643840, 9830400, 655360]) (h := [327680, 655360, 655360]) (fun _ => rfl) h73 (check_cut (c1 := [20643840, 9502720, 655360]) (c2 := [20643840, 10158080, 655360]) (h := [327680, 327680, 655360]) (fun _ => rfl) h74 (check_cut (c1 := [20643840, 10158080, 327680]) (c2 := [20643840, 10158080, 983040]) (h := [327680, 327680, 327680]) (fun _ => rfl) (check_cut (c1 := [20480000, 10158080, 327680]) (c2 := [20807680, 10158080, 327680]) (h := [163840, 327680, 327680]) (fun _ => rfl) h75 (check_cut (c1 := [20807680, 9994240, 327680]) (c2 := [20807680, 10321920, 327680]) (h := [163840, 163840, 327680]) (fun _ => rfl) h76 (check_cut (c1 := [20807680, 10321920, 163840]) (c2 := [20807680, 10321920, 491520]) (h := [163840, 163840, 163840]) (fun _ => rfl) (check_cut (c1 := [20725760, 10321920, 163840]) (c2 := [20889600, 10321920, 163840]) (h := [81920, 163840, 163840]) (fun _ => rfl) h77 (check_cut (c1 := [20889600, 10240000, 163840]) (c2 := [20889600, 10403840, 163840]) (h := [81920, 81920, 163840]) (fun _ => rfl) h78 (check_cut (c1 := [20889600, 10403840, 81920]) (c2 := [20889600, 10403840, 245760]) (h := [81920, 81920, 81920]) (fun _ => rfl) (check_cut (c1 := [20848640, 10403840, 81920]) (c2 := [20930560, 10403840, 81920]) (h := [40960, 81920, 81920]) (fun _ => rfl) h79 h80) h81))) h82))) h83))) h84))) h85))) h86))) (check_cut (c1 := [13107200, 5242880, 15728640]) (c2 := [18350080, 5242880, 15728640]) (h := [2621440, 5242880, 5242880]) (fun _ => rfl) h87 h88)) (check_cut (c1 := [15728640, 15728640, 5242880]) (c2 := [15728640, 15728640, 15728640]) (h := [5242880, 5242880, 5242880]) (fun _ => rfl) (check_cut (c1 := [13107200, 15728640, 5242880]) (c2 := [18350080, 15728640, 5242880]) (h := [2621440, 5242880, 5242880]) (fun _ => rfl) (check_cut (c1 := [13107200, 13107200, 5242880]) (c2 := [13107200, 18350080, 5242880]) (h := [2621440, 2621440, 5242880]) (fun _ => rfl) (check_cut (c1 := [13107200, 13107200, 2621440]) (c2 := [13107200, 13107200, 7864320]) (h := [2621440, 2621440, 2621440]) (fun _ => rfl) h89 (check_cut (c1 := [11796480, 13107200, 7864320]) (c2 := [14417920, 13107200, 7864320]) (h := [1310720, 2621440, 2621440]) (fun _ => rfl) (check_cut (c1 := [11796480, 11796480, 7864320]) (c2 := [11796480, 14417920, 7864320]) (h := [1310720, 1310720, 2621440]) (fun _ => rfl) (check_cut (c1 := [11796480, 11796480, 6553600]) (c2 := [11796480, 11796480, 9175040]) (h := [1310720, 1310720, 1310720]) (fun _ => rfl) h90 (check_cut (c1 := [11141120, 11796480, 9175040]) (c2 := [12451840, 11796480, 9175040]) (h := [655360, 1310720, 1310720]) (fun _ => rfl) (check_cut (c1 := [11141120, 11141120, 9175040]) (c2 := [11141120, 12451840, 9175040]) (h := [655360, 655360, 1310720]) (fun _ => rfl) (check_cut (c1 := [11141120, 11141120, 8519680]) (c2 := [11141120, 11141120, 9830400]) (h := [655360, 655360, 655360]) (fun _ => rfl) h91 (check_cut (c1 := [10813440, 11141120, 9830400]) (c2 := [11468800, 11141120, 9830400]) (h := [327680, 655360, 655360]) (fun _ => rfl) (check_cut (c1 := [10813440, 10813440, 9830400]) (c2 := [10813440, 11468800, 9830400]) (h := [327680, 327680, 655360]) (fun _ => rfl) (check_cut (c1 := [10813440, 10813440, 9502720]) (c2 := [10813440, 10813440, 10158080]) (h := [327680, 327680, 327680]) (fun _ => rfl) h92 h93) h94) h95)) h96) h97)) h98) h99)) h100) (check_cut (c1 := [18350080, 13107200, 5242880]) (c2 := [18350080, 18350080, 5242880]) (h := [2621440, 2621440, 5242880]) (fun _ => rfl) (check_cut (c1 := [18350080, 13107200, 2621440]) (c2 := [18350080, 13107200, 7864320]) (h := [2621440, 2621440, 2621440]) (fun _ => rfl) (check_cut (c1 := [17039360, 13107200, 2621440]) (c2 := [19660800, 13107200, 2621440]) (h := [1310720, 2621440, 2621440]) (fun _ => rfl) h101 (check_cut (c1 := [19660800, 11796480, 2621440]) (c2 := [19660800, 14417920, 2621440]) (h := [1310720, 1310720, 2621440]) (fun _ => rfl) (check_cut (c1 := [19660800, 11796480, 1310720]) (c2 := [19660800, 11796480, 3932160]) (h := [1310720, 1310720, 1310720]) (fun _ => rfl) (check_cut (c1 := [19005440, 11796480, 1310720]) (c2 := [20316160, 11796480, 1310720]) (h := [655360, 1310720, 1310720]) (fun _ => rfl) h102 (check_cut (c1 := [20316160, 11141120, 1310720]) (c2 := [20316160, 12451840, 1310720]) (h := [655360, 655360, 1310720]) (fun _ => rfl) (check_cut (c1 := [20316160, 11141120, 655360]) (c2 := [20316160, 11141120, 1966080]) (h := [655360, 655360, 655360]) (fun _ => rfl) (check_cut (c1 := [19988480, 11141120, 655360]) (c2 := [20643840, 11141120, 655360]) (h := [327680, 655360, 655360]) (fun _ => rfl) h103 (check_cut (c1 := [20643840, 10813440, 655360]) (c2 := [20643840, 11468800, 655360]) (h := [327680, 327680, 655360]) (fun _ => rfl) (check_cut (c1 := [20643840, 10813440, 327680]) (c2 := [20643840, 10813440, 983040]) (h := [327680, 327680, 327680]) (fun _ => rfl) (check_cut (c1 := [20480000, 10813440, 327680]) (c2 := [20807680, 10813440, 327680]) (h := [163840, 327680, 327680]) (fun _ => rfl) h104 (check_cut (c1 := [20807680, 10649600, 327680]) (c2 := [20807680, 10977280, 327680]) (h := [163840, 163840, 327680]) (fun _ => rfl) h105 h106)) h107) h108)) h109) h110)) h111) h112)) h113) h114)) h115)))

end FastNoise.NormCheck.Simplex3
