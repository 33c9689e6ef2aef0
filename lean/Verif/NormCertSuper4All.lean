import Verif.NormCheckLemmas
import Verif.NormCertSuper4P0
import Verif.NormCertSuper4P1
import Verif.NormCertSuper4P2
import Verif.NormCertSuper4P3
import Verif.NormCertSuper4P4
import Verif.NormCertSuper4P5
import Verif.NormCertSuper4P6
import Verif.NormCertSuper4P7
/-! Generated by tools/normcert/gen.py: a certificate for the checker `Verif.NormCheck`. -/
namespace FastNoise.NormCheck.Super4
open FastNoise.RangeCheck (Tree)

def tree : Tree := (.cut 0 (.cut 1 (.cut 2 (.cut 3 (.cut 0 (.cut 1 (.cut 2 (.cut 3 (.cut 0 (.cut 1 t0 t1) (.cut 1 t2 (.cut 2 t3 t4))) (.cut 0 t5 t6)) (.cut 3 t7 t8)) (.cut 2 t9 (.cut 3 t10 t11))) (.cut 1 (.cut 2 (.cut 3 (.cut 0 (.cut 1 (.cut 2 t12 t13) (.cut 2 t14 t15)) (.cut 1 (.cut 2 (.cut 3 t16 t17) t18) (.cut 2 t19 t20))) (.cut 0 t21 t22)) (.cut 3 (.cut 0 t23 t24) (.cut 0 t25 t26))) (.cut 2 (.cut 3 (.cut 0 (.cut 1 t27 t28) (.cut 1 (.cut 2 t29 t30) t31)) (.cut 0 t32 t33)) (.cut 3 (.cut 0 (.cut 1 t34 t35) (.cut 1 (.cut 2 t36 t37) t38)) (.cut 0 (.cut 1 (.cut 2 t39 t40) t41) (.cut 1 (.cut 2 (.cut 3 t42 t43) t44) (.cut 2 (.cut 3 t45 t46) (.cut 3 t47 t48)))))))) (.cut 0 t49 (.cut 1 t50 (.cut 2 t51 (.cut 3 (.cut 0 t52 (.cut 1 t53 t54)) t55))))) (.cut 3 (.cut 0 t56 (.cut 1 t57 (.cut 2 (.cut 3 t58 (.cut 0 t59 t60)) t61))) (.cut 0 t62 (.cut 1 t63 (.cut 2 (.cut 3 (.cut 0 t64 t65) t66) t67))))) (.cut 2 (.cut 3 (.cut 0 t68 (.cut 1 (.cut 2 (.cut 3 t69 t70) (.cut 3 t71 (.cut 0 t72 (.cut 1 (.cut 2 t73 t74) t75)))) t76)) t77) (.cut 3 (.cut 0 t78 (.cut 1 (.cut 2 (.cut 3 t79 t80) t81) t82)) t83))) (.cut 1 (.cut 2 (.cut 3 (.cut 0 (.cut 1 (.cut 2 (.cut 3 (.cut 0 (.cut 1 (.cut 2 (.cut 3 t84 t85) t86) (.cut 2 (.cut 3 t87 t88) (.cut 3 t89 t90))) (.cut 1 (.cut 2 t91 t92) (.cut 2 t93 t94))) (.cut 0 t95 t96)) (.cut 3 (.cut 0 t97 t98) (.cut 0 t99 t100))) (.cut 2 (.cut 3 (.cut 0 (.cut 1 (.cut 2 t101 t102) (.cut 2 t103 t104)) (.cut 1 (.cut 2 t105 t106) (.cut 2 t107 t108))) (.cut 0 t109 t110)) (.cut 3 (.cut 0 (.cut 1 (.cut 2 t111 t112) (.cut 2 t113 t114)) (.cut 1 t115 (.cut 2 t116 t117))) (.cut 0 (.cut 1 (.cut 2 t118 t119) (.cut 2 (.cut 3 t120 t121) (.cut 3 t122 t123))) (.cut 1 (.cut 2 t124 t125) (.cut 2 t126 t127)))))) (.cut 1 (.cut 2 (.cut 3 (.cut 0 (.cut 1 (.cut 2 t128 t129) (.cut 2 t130 t131)) (.cut 1 t132 t133)) (.cut 0 t134 t135)) (.cut 3 (.cut 0 t136 t137) (.cut 0 t138 t139))) (.cut 2 (.cut 3 (.cut 0 (.cut 1 (.cut 2 t140 t141) (.cut 2 t142 t143)) (.cut 1 (.cut 2 t144 t145) (.cut 2 (.cut 3 t146 t147) t148))) (.cut 0 t149 t150)) (.cut 3 (.cut 0 (.cut 1 (.cut 2 t151 t152) (.cut 2 t153 t154)) (.cut 1 t155 (.cut 2 t156 t157))) (.cut 0 (.cut 1 t158 (.cut 2 t159 t160)) (.cut 1 t161 t162)))))) (.cut 0 (.cut 1 t163 (.cut 2 t164 (.cut 3 (.cut 0 (.cut 1 t165 t166) t167) t168))) (.cut 1 t169 (.cut 2 t170 (.cut 3 (.cut 0 t171 t172) t173))))) (.cut 3 (.cut 0 (.cut 1 t174 (.cut 2 (.cut 3 (.cut 0 t175 t176) (.cut 0 t177 t178)) t179)) (.cut 1 t180 (.cut 2 (.cut 3 t181 t182) t183))) (.cut 0 (.cut 1 t184 (.cut 2 (.cut 3 t185 t186) t187)) t188))) (.cut 2 (.cut 3 (.cut 0 (.cut 1 (.cut 2 (.cut 3 (.cut 0 (.cut 1 t189 t190) (.cut 1 t191 t192)) (.cut 0 t193 t194)) (.cut 3 (.cut 0 (.cut 1 (.cut 2 t195 t196) t197) (.cut 1 t198 t199)) (.cut 0 (.cut 1 (.cut 2 t200 (.cut 3 t201 t202)) t203) (.cut 1 (.cut 2 t204 t205) (.cut 2 t206 t207))))) (.cut 2 (.cut 3 t208 t209) (.cut 3 t210 t211))) (.cut 1 (.cut 2 (.cut 3 (.cut 0 (.cut 1 (.cut 2 t212 t213) t214) (.cut 1 (.cut 2 (.cut 3 t215 t216) t217) (.cut 2 t218 t219))) (.cut 0 t220 t221)) (.cut 3 (.cut 0 (.cut 1 t222 t223) (.cut 1 (.cut 2 t224 t225) (.cut 2 t226 t227))) (.cut 0 (.cut 1 (.cut 2 t228 t229) t230) t231))) (.cut 2 (.cut 3 (.cut 0 (.cut 1 t232 t233) (.cut 1 t234 t235)) t236) (.cut 3 (.cut 0 (.cut 1 t237 t238) (.cut 1 t239 t240)) t241)))) (.cut 0 (.cut 1 (.cut 2 t242 (.cut 3 (.cut 0 t243 t244) t245)) t246) t247)) (.cut 3 (.cut 0 (.cut 1 (.cut 2 (.cut 3 (.cut 0 (.cut 1 t248 t249) (.cut 1 t250 t251)) (.cut 0 (.cut 1 (.cut 2 (.cut 3 t252 t253) t254) t255) (.cut 1 t256 t257))) t258) t259) (.cut 1 (.cut 2 (.cut 3 (.cut 0 (.cut 1 t260 t261) t262) t263) t264) t265)) t266))))
theorem checked : check par tree [8388608, 8388608, 8388608, 8388608] [8388608, 8388608, 8388608, 8388608] st = true := (check_cut (c1 := [4194304, 8388608, 8388608, 8388608]) (c2 := [12582912, 8388608, 8388608, 8388608]) (h := [4194304, 8388608, 8388608, 8388608]) (fun _ => rfl) (check_cut (c1 := [4194304, 4194304, 8388608, 8388608]) (c2 := [4194304, 12582912, 8388608, 8388608]) (h := [4194304, 4194304, 8388608, 8388608]) (fun _ => rfl) (check_cut (c1 := [4194304, 4194304, 4194304, 8388608]) (c2 := [4194304, 4194304, 12582912, 8388608]) (h := [4194304, 4194304, 4194304, 8388608]) (fun _ => rfl) (check_cut (c1 := [4194304, 4194304, 4194304, 4194304]) (c2 := [4194304, 4194304, 4194304, 12582912]) (h := [4194304, 4194304, 4194304, 4194304]) (fun _ => rfl) (check_cut (c1 := [2097152, 4194304, 4194304, 4194304]) (c2 := [6291456, 4194304, 4194304, 4194304]) (h := [2097152, 4194304, 4194304, 4194304]) (fun _ => rfl) (check_cut (c1 := [2097152, 2097152, 4194304, 4194304]) (c2 := [2097152, 6291456, 4194304, 4194304]) (h := [2097152, 2097152, 4194304, 4194304]) (fun _ => rfl) (check_cut (c1 := [2097152, 2097152, 2097152, 4194304]) (c2 := [2097152, 2097152, 6291456, 4194304]) (h := [2097152, 2097152, 2097152, 4194304]) (fun _ => rfl) (check_cut (c1 := [2097152, 2097152, 2097152, 2097152]) (c2 := [2097152, 2097152, 2097152, 6291456]) (h := [2097152, 2097152, 2097152, 2097152]) (fun _ => rfl) (check_cut (c1 := [1048576, 2097152, 2097152, 2097152]) (c2 := [3145728, 2097152, 2097152, 2097152]) (h := [1048576, 2097152, 2097152, 2097152]) (fun _ => rfl) (check_cut (c1 := [1048576, 1048576, 2097152, 2097152]) (c2 := [1048576, 3145728, 2097152, 2097152]) (h := [1048576, 1048576, 2097152, 2097152]) (fun _ => rfl) h0 h1) (check_cut (c1 := [3145728, 1048576, 2097152, 2097152]) (c2 := [3145728, 3145728, 2097152, 2097152]) (h := [1048576, 1048576, 2097152, 2097152]) (fun _ => rfl) h2 (check_cut (c1 := [3145728, 3145728, 1048576, 2097152]) (c2 := [3145728, 3145728, 3145728, 2097152]) (h := [1048576, 1048576, 1048576, 2097152]) (fun _ => rfl) h3 h4))) (check_cut (c1 := [1048576, 2097152, 2097152, 6291456]) (c2 := [3145728, 2097152, 2097152, 6291456]) (h := [1048576, 2097152, 2097152, 2097152]) (fun _ => rfl) h5 h6)) (check_cut (c1 := [2097152, 2097152, 6291456, 2097152]) (c2 := [2097152, 2097152, 6291456, 6291456]) (h := [2097152, 2097152, 2097152, 2097152]) (fun _ => rfl) h7 h8)) (check_cut (c1 := [2097152, 6291456, 2097152, 4194304]) (c2 := [2097152, 6291456, 6291456, 4194304]) (h := [2097152, 2097152, 2097152, 4194304]) (fun _ => rfl) h9 (check_cut (c1 := [2097152, 6291456, 6291456, 2097152]) (c2 := [2097152, 6291456, 6291456, 6291456]) (h := [2097152, 2097152, 2097152, 2097152]) (fun _ => rfl) h10 h11))) (check_cut (c1 := [6291456, 2097152, 4194304, 4194304]) (c2 := [6291456, 6291456, 4194304, 4194304]) (h := [2097152, 2097152, 4194304, 4194304]) (fun _ => rfl) (check_cut (c1 := [6291456, 2097152, 2097152, 4194304]) (c2 := [6291456, 2097152, 6291456, 4194304]) (h := [2097152, 2097152, 2097152, 4194304]) (fun _ => rfl) (check_cut (c1 := [6291456, 2097152, 2097152, 2097152]) (c2 := [6291456, 2097152, 2097152, 6291456]) (h := [2097152, 2097152, 2097152, 2097152]) (fun _ => rfl) (check_cut (c1 := [5242880, 2097152, 2097152, 2097152]) (c2 := [7340032, 2097152, 2097152, 2097152]) (h := [1048576, 2097152, 2097152, 2097152]) (fun _ => rfl) (check_cut (c1 := [5242880, 1048576, 2097152, 2097152]) (c2 := [5242880, 3145728, 2097152, 2097152]) (h := [1048576, 1048576, 2097152, 2097152]) (fun _ => rfl) (check_cut (c1 := [5242880, 1048576, 1048576, 2097152]) (c2 := [5242880, 1048576, 3145728, 2097152]) (h := [1048576, 1048576, 1048576, 2097152]) (fun _ => rfl) h12 h13) (check_cut (c1 := [5242880, 3145728, 1048576, 2097152]) (c2 := [5242880, 3145728, 3145728, 2097152]) (h := [1048576, 1048576, 1048576, 2097152]) (fun _ => rfl) h14 h15)) (check_cut (c1 := [7340032, 1048576, 2097152, 2097152]) (c2 := [7340032, 3145728, 2097152, 2097152]) (h := [1048576, 1048576, 2097152, 2097152]) (fun _ => rfl) (check_cut (c1 := [7340032, 1048576, 1048576, 2097152]) (c2 := [7340032, 1048576, 3145728, 2097152]) (h := [1048576, 1048576, 1048576, 2097152]) (fun _ => rfl) (check_cut (c1 := [7340032, 1048576, 1048576, 1048576]) (c2 := [7340032, 1048576, 1048576, 3145728]) (h := [1048576, 1048576, 1048576, 1048576]) (fun _ => rfl) h16 h17) h18) (check_cut (c1 := [7340032, 3145728, 1048576, 2097152]) (c2 := [7340032, 3145728, 3145728, 2097152]) (h := [1048576, 1048576, 1048576, 2097152]) (fun _ => rfl) h19 h20))) (check_cut (c1 := [5242880, 2097152, 2097152, 6291456]) (c2 := [7340032, 2097152, 2097152, 6291456]) (h := [1048576, 2097152, 2097152, 2097152]) (fun _ => rfl) h21 h22)) (check_cut (c1 := [6291456, 2097152, 6291456, 2097152]) (c2 := [6291456, 2097152, 6291456, 6291456]) (h := [2097152, 2097152, 2097152, 2097152]) (fun _ => rfl) (check_cut (c1 := [5242880, 2097152, 6291456, 2097152]) (c2 := [7340032, 2097152, 6291456, 2097152]) (h := [1048576, 2097152, 2097152, 2097152]) (fun _ => rfl) h23 h24) (check_cut (c1 := [5242880, 2097152, 6291456, 6291456]) (c2 := [7340032, 2097152, 6291456, 6291456]) (h := [1048576, 2097152, 2097152, 2097152]) (fun _ => rfl) h25 h26))) (check_cut (c1 := [6291456, 6291456, 2097152, 4194304]) (c2 := [6291456, 6291456, 6291456, 4194304]) (h := [2097152, 2097152, 2097152, 4194304]) (fun _ => rfl) (check_cut (c1 := [6291456, 6291456, 2097152, 2097152]) (c2 := [6291456, 6291456, 2097152, 6291456]) (h := [2097152, 2097152, 2097152, 2097152]) (fun _ => rfl) (check_cut (c1 := [5242880, 6291456, 2097152, 2097152]) (c2 := [7340032, 6291456, 2097152, 2097152]) (h := [1048576, 2097152, 2097152, 2097152]) (fun _ => rfl) (check_cut (c1 := [5242880, 5242880, 2097152, 2097152]) (c2 := [5242880, 7340032, 2097152, 2097152]) (h := [1048576, 1048576, 2097152, 2097152]) (fun _ => rfl) h27 h28) (check_cut (c1 := [7340032, 5242880, 2097152, 2097152]) (c2 := [7340032, 7340032, 2097152, 2097152]) (h := [1048576, 1048576, 2097152, 2097152]) (fun _ => rfl) (check_cut (c1 := [7340032, 5242880, 1048576, 2097152]) (c2 := [7340032, 5242880, 3145728, 2097152]) (h := [1048576, 1048576, 1048576, 2097152]) (fun _ => rfl) h29 h30) h31)) (check_cut (c1 := [5242880, 6291456, 2097152, 6291456]) (c2 := [7340032, 6291456, 2097152, 6291456]) (h := [1048576, 2097152, 2097152, 2097152]) (fun _ => rfl) h32 h33)) (check_cut (c1 := [6291456, 6291456, 6291456, 2097152]) (c2 := [6291456, 6291456, 6291456, 6291456]) (h := [2097152, 2097152, 2097152, 2097152]) (fun _ => rfl) (check_cut (c1 := [5242880, 6291456, 6291456, 2097152]) (c2 := [7340032, 6291456, 6291456, 2097152]) (h := [1048576, 2097152, 2097152, 2097152]) (fun _ => rfl) (check_cut (c1 := [5242880, 5242880, 6291456, 2097152]) (c2 := [5242880, 7340032, 6291456, 2097152]) (h := [1048576, 1048576, 2097152, 2097152]) (fun _ => rfl) h34 h35) (check_cut (c1 := [7340032, 5242880, 6291456, 2097152]) (c2 := [7340032, 7340032, 6291456, 2097152]) (h := [1048576, 1048576, 2097152, 2097152]) (fun _ => rfl) (check_cut (c1 := [7340032, 5242880, 5242880, 2097152]) (c2 := [7340032, 5242880, 7340032, 2097152]) (h := [1048576, 1048576, 1048576, 2097152]) (fun _ => rfl) h36 h37) h38)) (check_cut (c1 := [5242880, 6291456, 6291456, 6291456]) (c2 := [7340032, 6291456, 6291456, 6291456]) (h := [1048576, 2097152, 2097152, 2097152]) (fun _ => rfl) (check_cut (c1 := [5242880, 5242880, 6291456, 6291456]) (c2 := [5242880, 7340032, 6291456, 6291456]) (h := [1048576, 1048576, 2097152, 2097152]) (fun _ => rfl) (check_cut (c1 := [5242880, 5242880, 5242880, 6291456]) (c2 := [5242880, 5242880, 7340032, 6291456]) (h := [1048576, 1048576, 1048576, 2097152]) (fun _ => rfl) h39 h40) h41) (check_cut (c1 := [7340032, 5242880, 6291456, 6291456]) (c2 := [7340032, 7340032, 6291456, 6291456]) (h := [1048576, 1048576, 2097152, 2097152]) (fun _ => rfl) (check_cut (c1 := [7340032, 5242880, 5242880, 6291456]) (c2 := [7340032, 5242880, 7340032, 6291456]) (h := [1048576, 1048576, 1048576, 2097152]) (fun _ => rfl) (check_cut (c1 := [7340032, 5242880, 5242880, 5242880]) (c2 := [7340032, 5242880, 5242880, 7340032]) (h := [1048576, 1048576, 1048576, 1048576]) (fun _ => rfl) h42 h43) h44) (check_cut (c1 := [7340032, 7340032, 5242880, 6291456]) (c2 := [7340032, 7340032, 7340032, 6291456]) (h := [1048576, 1048576, 1048576, 2097152]) (fun _ => rfl) (check_cut (c1 := [7340032, 7340032, 5242880, 5242880]) (c2 := [7340032, 7340032, 5242880, 7340032]) (h := [1048576, 1048576, 1048576, 1048576]) (fun _ => rfl) h45 h46) (check_cut (c1 := [7340032, 7340032, 7340032, 5242880]) (c2 := [7340032, 7340032, 7340032, 7340032]) (h := [1048576, 1048576, 1048576, 1048576]) (fun _ => rfl) h47 h48)))))))) (check_cut (c1 := [2097152, 4194304, 4194304, 12582912]) (c2 := [6291456, 4194304, 4194304, 12582912]) (h := [2097152, 4194304, 4194304, 4194304]) (fun _ => rfl) h49 (check_cut (c1 := [6291456, 2097152, 4194304, 12582912]) (c2 := [6291456, 6291456, 4194304, 12582912]) (h := [2097152, 2097152, 4194304, 4194304]) (fun _ => rfl) h50 (check_cut (c1 := [6291456, 6291456, 2097152, 12582912]) (c2 := [6291456, 6291456, 6291456, 12582912]) (h := [2097152, 2097152, 2097152, 4194304]) (fun _ => rfl) h51 (check_cut (c1 := [6291456, 6291456, 6291456, 10485760]) (c2 := [6291456, 6291456, 6291456, 14680064]) (h := [2097152, 2097152, 2097152, 2097152]) (fun _ => rfl) (check_cut (c1 := [5242880, 6291456, 6291456, 10485760]) (c2 := [7340032, 6291456, 6291456, 10485760]) (h := [1048576, 2097152, 2097152, 2097152]) (fun _ => rfl) h52 (check_cut (c1 := [7340032, 5242880, 6291456, 10485760]) (c2 := [7340032, 7340032, 6291456, 10485760]) (h := [1048576, 1048576, 2097152, 2097152]) (fun _ => rfl) h53 h54)) h55))))) (check_cut (c1 := [4194304, 4194304, 12582912, 4194304]) (c2 := [4194304, 4194304, 12582912, 12582912]) (h := [4194304, 4194304, 4194304, 4194304]) (fun _ => rfl) (check_cut (c1 := [2097152, 4194304, 12582912, 4194304]) (c2 := [6291456, 4194304, 12582912, 4194304]) (h := [2097152, 4194304, 4194304, 4194304]) (fun _ => rfl) h56 (check_cut (c1 := [6291456, 2097152, 12582912, 4194304]) (c2 := [6291456, 6291456, 12582912, 4194304]) (h := [2097152, 2097152, 4194304, 4194304]) (fun _ => rfl) h57 (check_cut (c1 := [6291456, 6291456, 10485760, 4194304]) (c2 := [6291456, 6291456, 14680064, 4194304]) (h := [2097152, 2097152, 2097152, 4194304]) (fun _ => rfl) (check_cut (c1 := [6291456, 6291456, 10485760, 2097152]) (c2 := [6291456, 6291456, 10485760, 6291456]) (h := [2097152, 2097152, 2097152, 2097152]) (fun _ => rfl) h58 (check_cut (c1 := [5242880, 6291456, 10485760, 6291456]) (c2 := [7340032, 6291456, 10485760, 6291456]) (h := [1048576, 2097152, 2097152, 2097152]) (fun _ => rfl) h59 h60)) h61))) (check_cut (c1 := [2097152, 4194304, 12582912, 12582912]) (c2 := [6291456, 4194304, 12582912, 12582912]) (h := [2097152, 4194304, 4194304, 4194304]) (fun _ => rfl) h62 (check_cut (c1 := [6291456, 2097152, 12582912, 12582912]) (c2 := [6291456, 6291456, 12582912, 12582912]) (h := [2097152, 2097152, 4194304, 4194304]) (fun _ => rfl) h63 (check_cut (c1 := [6291456, 6291456, 10485760, 12582912]) (c2 := [6291456, 6291456, 14680064, 12582912]) (h := [2097152, 2097152, 2097152, 4194304]) (fun _ => rfl) (check_cut (c1 := [6291456, 6291456, 10485760, 10485760]) (c2 := [6291456, 6291456, 10485760, 14680064]) (h := [2097152, 2097152, 2097152, 2097152]) (fun _ => rfl) (check_cut (c1 := [5242880, 6291456, 10485760, 10485760]) (c2 := [7340032, 6291456, 10485760, 10485760]) (h := [1048576, 2097152, 2097152, 2097152]) (fun _ => rfl) h64 h65) h66) h67))))) (check_cut (c1 := [4194304, 12582912, 4194304, 8388608]) (c2 := [4194304, 12582912, 12582912, 8388608]) (h := [4194304, 4194304, 4194304, 8388608]) (fun _ => rfl) (check_cut (c1 := [4194304, 12582912, 4194304, 4194304]) (c2 := [4194304, 12582912, 4194304, 12582912]) (h := [4194304, 4194304, 4194304, 4194304]) (fun _ => rfl) (check_cut (c1 := [2097152, 12582912, 4194304, 4194304]) (c2 := [6291456, 12582912, 4194304, 4194304]) (h := [2097152, 4194304, 4194304, 4194304]) (fun _ => rfl) h68 (check_cut (c1 := [6291456, 10485760, 4194304, 4194304]) (c2 := [6291456, 14680064, 4194304, 4194304]) (h := [2097152, 2097152, 4194304, 4194304]) (fun _ => rfl) (check_cut (c1 := [6291456, 10485760, 2097152, 4194304]) (c2 := [6291456, 10485760, 6291456, 4194304]) (h := [2097152, 2097152, 2097152, 4194304]) (fun _ => rfl) (check_cut (c1 := [6291456, 10485760, 2097152, 2097152]) (c2 := [6291456, 10485760, 2097152, 6291456]) (h := [2097152, 2097152, 2097152, 2097152]) (fun _ => rfl) h69 h70) (check_cut (c1 := [6291456, 10485760, 6291456, 2097152]) (c2 := [6291456, 10485760, 6291456, 6291456]) (h := [2097152, 2097152, 2097152, 2097152]) (fun _ => rfl) h71 (check_cut (c1 := [5242880, 10485760, 6291456, 6291456]) (c2 := [7340032, 10485760, 6291456, 6291456]) (h := [1048576, 2097152, 2097152, 2097152]) (fun _ => rfl) h72 (check_cut (c1 := [7340032, 9437184, 6291456, 6291456]) (c2 := [7340032, 11534336, 6291456, 6291456]) (h := [1048576, 1048576, 2097152, 2097152]) (fun _ => rfl) (check_cut (c1 := [7340032, 9437184, 5242880, 6291456]) (c2 := [7340032, 9437184, 7340032, 6291456]) (h := [1048576, 1048576, 1048576, 2097152]) (fun _ => rfl) h73 h74) h75)))) h76)) h77) (check_cut (c1 := [4194304, 12582912, 12582912, 4194304]) (c2 := [4194304, 12582912, 12582912, 12582912]) (h := [4194304, 4194304, 4194304, 4194304]) (fun _ => rfl) (check_cut (c1 := [2097152, 12582912, 12582912, 4194304]) (c2 := [6291456, 12582912, 12582912, 4194304]) (h := [2097152, 4194304, 4194304, 4194304]) (fun _ => rfl) h78 (check_cut (c1 := [6291456, 10485760, 12582912, 4194304]) (c2 := [6291456, 14680064, 12582912, 4194304]) (h := [2097152, 2097152, 4194304, 4194304]) (fun _ => rfl) (check_cut (c1 := [6291456, 10485760, 10485760, 4194304]) (c2 := [6291456, 10485760, 14680064, 4194304]) (h := [2097152, 2097152, 2097152, 4194304]) (fun _ => rfl) (check_cut (c1 := [6291456, 10485760, 10485760, 2097152]) (c2 := [6291456, 10485760, 10485760, 6291456]) (h := [2097152, 2097152, 2097152, 2097152]) (fun _ => rfl) h79 h80) h81) h82)) h83))) (check_cut (c1 := [12582912, 4194304, 8388608, 8388608]) (c2 := [12582912, 12582912, 8388608, 8388608]) (h := [4194304, 4194304, 8388608, 8388608]) (fun _ => rfl) (check_cut (c1 := [12582912, 4194304, 4194304, 8388608]) (c2 := [12582912, 4194304, 12582912, 8388608]) (h := [4194304, 4194304, 4194304, 8388608]) (fun _ => rfl) (check_cut (c1 := [12582912, 4194304, 4194304, 4194304]) (c2 := [12582912, 4194304, 4194304, 12582912]) (h := [4194304, 4194304, 4194304, 4194304]) (fun _ => rfl) (check_cut (c1 := [10485760, 4194304, 4194304, 4194304]) (c2 := [14680064, 4194304, 4194304, 4194304]) (h := [2097152, 4194304, 4194304, 4194304]) (fun _ => rfl) (check_cut (c1 := [10485760, 2097152, 4194304, 4194304]) (c2 := [10485760, 6291456, 4194304, 4194304]) (h := [2097152, 2097152, 4194304, 4194304]) (fun _ => rfl) (check_cut (c1 := [10485760, 2097152, 2097152, 4194304]) (c2 := [10485760, 2097152, 6291456, 4194304]) (h := [2097152, 2097152, 2097152, 4194304]) (fun _ => rfl) (check_cut (c1 := [10485760, 2097152, 2097152, 2097152]) (c2 := [10485760, 2097152, 2097152, 6291456]) (h := [2097152, 2097152, 2097152, 2097152]) (fun _ => rfl) (check_cut (c1 := [9437184, 2097152, 2097152, 2097152]) (c2 := [11534336, 2097152, 2097152, 2097152]) (h := [1048576, 2097152, 2097152, 2097152]) (fun _ => rfl) (check_cut (c1 := [9437184, 1048576, 2097152, 2097152]) (c2 := [9437184, 3145728, 2097152, 2097152]) (h := [1048576, 1048576, 2097152, 2097152]) (fun _ => rfl) (check_cut (c1 := [9437184, 1048576, 1048576, 2097152]) (c2 := [9437184, 1048576, 3145728, 2097152]) (h := [1048576, 1048576, 1048576, 2097152]) (fun _ => rfl) (check_cut (c1 := [9437184, 1048576, 1048576, 1048576]) (c2 := [9437184, 1048576, 1048576, 3145728]) (h := [1048576, 1048576, 1048576, 1048576]) (fun _ => rfl) h84 h85) h86) (check_cut (c1 := [9437184, 3145728, 1048576, 2097152]) (c2 := [9437184, 3145728, 3145728, 2097152]) (h := [1048576, 1048576, 1048576, 2097152]) (fun _ => rfl) (check_cut (c1 := [9437184, 3145728, 1048576, 1048576]) (c2 := [9437184, 3145728, 1048576, 3145728]) (h := [1048576, 1048576, 1048576, 1048576]) (fun _ => rfl) h87 h88) (check_cut (c1 := [9437184, 3145728, 3145728, 1048576]) (c2 := [9437184, 3145728, 3145728, 3145728]) (h := [1048576, 1048576, 1048576, 1048576]) (fun _ => rfl) h89 h90))) (check_cut (c1 := [11534336, 1048576, 2097152, 2097152]) (c2 := [11534336, 3145728, 2097152, 2097152]) (h := [1048576, 1048576, 2097152, 2097152]) (fun _ => rfl) (check_cut (c1 := [11534336, 1048576, 1048576, 2097152]) (c2 := [11534336, 1048576, 3145728, 2097152]) (h := [1048576, 1048576, 1048576, 2097152]) (fun _ => rfl) h91 h92) (check_cut (c1 := [11534336, 3145728, 1048576, 2097152]) (c2 := [11534336, 3145728, 3145728, 2097152]) (h := [1048576, 1048576, 1048576, 2097152]) (fun _ => rfl) h93 h94))) (check_cut (c1 := [9437184, 2097152, 2097152, 6291456]) (c2 := [11534336, 2097152, 2097152, 6291456]) (h := [1048576, 2097152, 2097152, 2097152]) (fun _ => rfl) h95 h96)) (check_cut (c1 := [10485760, 2097152, 6291456, 2097152]) (c2 := [10485760, 2097152, 6291456, 6291456]) (h := [2097152, 2097152, 2097152, 2097152]) (fun _ => rfl) (check_cut (c1 := [9437184, 2097152, 6291456, 2097152]) (c2 := [11534336, 2097152, 6291456, 2097152]) (h := [1048576, 2097152, 2097152, 2097152]) (fun _ => rfl) h97 h98) (check_cut (c1 := [9437184, 2097152, 6291456, 6291456]) (c2 := [11534336, 2097152, 6291456, 6291456]) (h := [1048576, 2097152, 2097152, 2097152]) (fun _ => rfl) h99 h100))) (check_cut (c1 := [10485760, 6291456, 2097152, 4194304]) (c2 := [10485760, 6291456, 6291456, 4194304]) (h := [2097152, 2097152, 2097152, 4194304]) (fun _ => rfl) (check_cut (c1 := [10485760, 6291456, 2097152, 2097152]) (c2 := [10485760, 6291456, 2097152, 6291456]) (h := [2097152, 2097152, 2097152, 2097152]) (fun _ => rfl) (check_cut (c1 := [9437184, 6291456, 2097152, 2097152]) (c2 := [11534336, 6291456, 2097152, 2097152]) (h := [1048576, 2097152, 2097152, 2097152]) (fun _ => rfl) (check_cut (c1 := [9437184, 5242880, 2097152, 2097152]) (c2 := [9437184, 7340032, 2097152, 2097152]) (h := [1048576, 1048576, 2097152, 2097152]) (fun _ => rfl) (check_cut (c1 := [9437184, 5242880, 1048576, 2097152]) (c2 := [9437184, 5242880, 3145728, 2097152]) (h := [1048576, 1048576, 1048576, 2097152]) (fun _ => rfl) h101 h102) (check_cut (c1 := [9437184, 7340032, 1048576, 2097152]) (c2 := [9437184, 7340032, 3145728, 2097152]) (h := [1048576, 1048576, 1048576, 2097152]) (fun _ => rfl) h103 h104)) (check_cut (c1 := [11534336, 5242880, 2097152, 2097152]) (c2 := [11534336, 7340032, 2097152, 2097152]) (h := [1048576, 1048576, 2097152, 2097152]) (fun _ => rfl) (check_cut (c1 := [11534336, 5242880, 1048576, 2097152]) (c2 := [11534336, 5242880, 3145728, 2097152]) (h := [1048576, 1048576, 1048576, 2097152]) (fun _ => rfl) h105 h106) (check_cut (c1 := [11534336, 7340032, 1048576, 2097152]) (c2 := [11534336, 7340032, 3145728, 2097152]) (h := [1048576, 1048576, 1048576, 2097152]) (fun _ => rfl) h107 h108))) (check_cut (c1 := [9437184, 6291456, 2097152, 6291456]) (c2 := [11534336, 6291456, 2097152, 6291456]) (h := [1048576, 2097152, 2097152, 2097152]) (fun _ => rfl) h109 h110)) (check_cut (c1 := [10485760, 6291456, 6291456, 2097152]) (c2 := [10485760, 6291456, 6291456, 6291456]) (h := [2097152, 2097152, 2097152, 2097152]) (fun _ => rfl) (check_cut (c1 := [9437184, 6291456, 6291456, 2097152]) (c2 := [11534336, 6291456, 6291456, 2097152]) (h := [1048576, 2097152, 2097152, 2097152]) (fun _ => rfl) (check_cut (c1 := [9437184, 5242880, 6291456, 2097152]) (c2 := [9437184, 7340032, 6291456, 2097152]) (h := [1048576, 1048576, 2097152, 2097152]) (fun _ => rfl) (check_cut (c1 := [9437184, 5242880, 5242880, 2097152]) (c2 := [9437184, 5242880, 7340032, 2097152]) (h := [1048576, 1048576, 1048576, 2097152]) (fun _ => rfl) h111 h112) (check_cut (c1 := [9437184, 7340032, 5242880, 2097152]) (c2 := [9437184, 7340032, 7340032, 2097152]) (h := [1048576, 1048576, 1048576, 2097152]) (fun _ => rfl) h113 h114)) (check_cut (c1 := [11534336, 5242880, 6291456, 2097152]) (c2 := [11534336, 7340032, 6291456, 2097152]) (h := [1048576, 1048576, 2097152, 2097152]) (fun _ => rfl) h115 (check_cut (c1 := [11534336, 7340032, 5242880, 2097152]) (c2 := [11534336, 7340032, 7340032, 2097152]) (h := [1048576, 1048576, 1048576, 2097152]) (fun _ => rfl) h116 h117))) (check_cut (c1 := [9437184, 6291456, 6291456, 6291456]) (c2 := [11534336, 6291456, 6291456, 6291456]) (h := [1048576, 2097152, 2097152, 2097152]) (fun _ => rfl) (check_cut (c1 := [9437184, 5242880, 6291456, 6291456]) (c2 := [9437184, 7340032, 6291456, 6291456]) (h := [1048576, 1048576, 2097152, 2097152]) (fun _ => rfl) (check_cut (c1 := [9437184, 5242880, 5242880, 6291456]) (c2 := [9437184, 5242880, 7340032, 6291456]) (h := [1048576, 1048576, 1048576, 2097152]) (fun _ => rfl) h118 h119) (check_cut (c1 := [9437184, 7340032, 5242880, 6291456]) (c2 := [9437184, 7340032, 7340032, 6291456]) (h := [1048576, 1048576, 1048576, 2097152]) (fun _ => rfl) (check_cut (c1 := [9437184, 7340032, 5242880, 5242880]) (c2 := [9437184, 7340032, 5242880, 7340032]) (h := [1048576, 1048576, 1048576, 1048576]) (fun _ => rfl) h120 h121) (check_cut (c1 := [9437184, 7340032, 7340032, 5242880]) (c2 := [9437184, 7340032, 7340032, 7340032]) (h := [1048576, 1048576, 1048576, 1048576]) (fun _ => rfl) h122 h123))) (check_cut (c1 := [11534336, 5242880, 6291456, 6291456]) (c2 := [11534336, 7340032, 6291456, 6291456]) (h := [1048576, 1048576, 2097152, 2097152]) (fun _ => rfl) (check_cut (c1 := [11534336, 5242880, 5242880, 6291456]) (c2 := [11534336, 5242880, 7340032, 6291456]) (h := [1048576, 1048576, 1048576, 2097152]) (fun _ => rfl) h124 h125) (check_cut (c1 := [11534336, 7340032, 5242880, 6291456]) (c2 := [11534336, 7340032, 7340032, 6291456]) (h := [1048576, 1048576, 1048576, 2097152]) (fun _ => rfl) h126 h127)))))) (check_cut (c1 := [14680064, 2097152, 4194304, 4194304]) (c2 := [14680064, 6291456, 4194304, 4194304]) (h := [2097152, 2097152, 4194304, 4194304]) (fun _ => rfl) (check_cut (c1 := [14680064, 2097152, 2097152, 4194304]) (c2 := [14680064, 2097152, 6291456, 4194304]) (h := [2097152, 2097152, 2097152, 4194304]) (fun _ => rfl) (check_cut (c1 := [14680064, 2097152, 2097152, 2097152]) (c2 := [14680064, 2097152, 2097152, 6291456]) (h := [2097152, 2097152, 2097152, 2097152]) (fun _ => rfl) (check_cut (c1 := [13631488, 2097152, 2097152, 2097152]) (c2 := [15728640, 2097152, 2097152, 2097152]) (h := [1048576, 2097152, 2097152, 2097152]) (fun _ => rfl) (check_cut (c1 := [13631488, 1048576, 2097152, 2097152]) (c2 := [13631488, 3145728, 2097152, 2097152]) (h := [1048576, 1048576, 2097152, 2097152]) (fun _ => rfl) (check_cut (c1 := [13631488, 1048576, 1048576, 2097152]) (c2 := [13631488, 1048576, 3145728, 2097152]) (h := [1048576, 1048576, 1048576, 2097152]) (fun _ => rfl) h128 h129) (check_cut (c1 := [13631488, 3145728, 1048576, 2097152]) (c2 := [13631488, 3145728, 3145728, 2097152]) (h := [1048576, 1048576, 1048576, 2097152]) (fun _ => rfl) h130 h131)) (check_cut (c1 := [15728640, 1048576, 2097152, 2097152]) (c2 := [15728640, 3145728, 2097152, 2097152]) (h := [1048576, 1048576, 2097152, 2097152]) (fun _ => rfl) h132 h133)) (check_cut (c1 := [13631488, 2097152, 2097152, 6291456]) (c2 := [15728640, 2097152, 2097152, 6291456]) (h := [1048576, 2097152, 2097152, 2097152]) (fun _ => rfl) h134 h135)) (check_cut (c1 := [14680064, 2097152, 6291456, 2097152]) (c2 := [14680064, 2097152, 6291456, 6291456]) (h := [2097152, 2097152, 2097152, 2097152]) (fun _ => rfl) (check_cut (c1 := [13631488, 2097152, 6291456, 2097152]) (c2 := [15728640, 2097152, 6291456, 2097152]) (h := [1048576, 2097152, 2097152, 2097152]) (fun _ => rfl) h136 h137) (check_cut (c1 := [13631488, 2097152, 6291456, 6291456]) (c2 := [15728640, 2097152, 6291456, 6291456]) (h := [1048576, 2097152, 2097152, 2097152]) (fun _ => rfl) h138 h139))) (check_cut (c1 := [14680064, 6291456, 2097152, 4194304]) (c2 := [14680064, 6291456, 6291456, 4194304]) (h := [2097152, 2097152, 2097152, 4194304]) (fun _ => rfl) (check_cut (c1 := [14680064, 6291456, 2097152, 2097152]) (c2 := [14680064, 6291456, 2097152, 6291456]) (h := [2097152, 2097152, 2097152, 2097152]) (fun _ => rfl) (check_cut (c1 := [13631488, 6291456, 2097152, 2097152]) (c2 := [15728640, 6291456, 2097152, 2097152]) (h := [1048576, 2097152, 2097152, 2097152]) (fun _ => rfl) (check_cut (c1 := [13631488, 5242880, 2097152, 2097152]) (c2 := [13631488, 7340032, 2097152, 2097152]) (h := [1048576, 1048576, 2097152, 2097152]) (fun _ => rfl) (check_cut (c1 := [13631488, 5242880, 1048576, 2097152]) (c2 := [13631488, 5242880, 3145728, 2097152]) (h := [1048576, 1048576, 1048576, 2097152]) (fun _ => rfl) h140 h141) (check_cut (c1 := [13631488, 7340032, 1048576, 2097152]) (c2 := [13631488, 7340032, 3145728, 2097152]) (h := [1048576, 1048576, 1048576, 2097152]) (fun _ => rfl) h142 h143)) (check_cut (c1 := [15728640, 5242880, 2097152, 2097152]) (c2 := [15728640, 7340032, 2097152, 2097152]) (h := [1048576, 1048576, 2097152, 2097152]) (fun _ => rfl) (check_cut (c1 := [15728640, 5242880, 1048576, 2097152]) (c2 := [15728640, 5242880, 3145728, 2097152]) (h := [1048576, 1048576, 1048576, 2097152]) (fun _ => rfl) h144 h145) (check_cut (c1 := [15728640, 7340032, 1048576, 2097152]) (c2 := [15728640, 7340032, 3145728, 2097152]) (h := [1048576, 1048576, 1048576, 2097152]) (fun _ => rfl) (check_cut (c1 := [15728640, 7340032, 1048576, 1048576]) (c2 := [15728640, 7340032, 1048576, 3145728]) (h := [1048576, 1048576, 1048576, 1048576]) (fun _ => rfl) h146 h147) h148))) (check_cut (c1 := [13631488, 6291456, 2097152, 6291456]) (c2 := [15728640, 6291456, 2097152, 6291456]) (h := [1048576, 2097152, 2097152, 2097152]) (fun _ => rfl) h149 h150)) (check_cut (c1 := [14680064, 6291456, 6291456, 2097152]) (c2 := [14680064, 6291456, 6291456, 6291456]) (h := [2097152, 2097152, 2097152, 2097152]) (fun _ => rfl) (check_cut (c1 := [13631488, 6291456, 6291456, 2097152]) (c2 := [15728640, 6291456, 6291456, 2097152]) (h := [1048576, 2097152, 2097152, 2097152]) (fun _ => rfl) (check_cut (c1 := [13631488, 5242880, 6291456, 2097152]) (c2 := [13631488, 7340032, 6291456, 2097152]) (h := [1048576, 1048576, 2097152, 2097152]) (fun _ => rfl) (check_cut (c1 := [13631488, 5242880, 5242880, 2097152]) (c2 := [13631488, 5242880, 7340032, 2097152]) (h := [1048576, 1048576, 1048576, 2097152]) (fun _ => rfl) h151 h152) (check_cut (c1 := [13631488, 7340032, 5242880, 2097152]) (c2 := [13631488, 7340032, 7340032, 2097152]) (h := [1048576, 1048576, 1048576, 2097152]) (fun _ => rfl) h153 h154)) (check_cut (c1 := [15728640, 5242880, 6291456, 2097152]) (c2 := [15728640, 7340032, 6291456, 2097152]) (h := [1048576, 1048576, 2097152, 2097152]) (fun _ => rfl) h155 (check_cut (c1 := [15728640, 7340032, 5242880, 2097152]) (c2 := [15728640, 7340032, 7340032, 2097152]) (h := [1048576, 1048576, 1048576, 2097152]) (fun _ => rfl) h156 h157))) (check_cut (c1 := [13631488, 6291456, 6291456, 6291456]) (c2 := [15728640, 6291456, 6291456, 6291456]) (h := [1048576, 2097152, 2097152, 2097152]) (fun _ => rfl) (check_cut (c1 := [13631488, 5242880, 6291456, 6291456]) (c2 := [13631488, 7340032, 6291456, 6291456]) (h := [1048576, 1048576, 2097152, 2097152]) (fun _ => rfl) h158 (check_cut (c1 := [13631488, 7340032, 5242880, 6291456]) (c2 := [13631488, 7340032, 7340032, 6291456]) (h := [1048576, 1048576, 1048576, 2097152]) (fun _ => rfl) h159 h160)) (check_cut (c1 := [15728640, 5242880, 6291456, 6291456]) (c2 := [15728640, 7340032, 6291456, 6291456]) (h := [1048576, 1048576, 2097152, 2097152]) (fun _ => rfl) h161 h162)))))) (check_cut (c1 := [10485760, 4194304, 4194304, 12582912]) (c2 := [14680064, 4194304, 4194304, 12582912]) (h := [2097152, 4194304, 4194304, 4194304]) (fun _ => rfl) (check_cut (c1 := [10485760, 2097152, 4194304, 12582912]) (c2 := [10485760, 6291456, 4194304, 12582912]) (h := [2097152, 2097152, 4194304, 4194304]) (fun _ => rfl) h163 (check_cut (c1 := [10485760, 6291456, 2097152, 12582912]) (c2 := [10485760, 6291456, 6291456, 12582912]) (h := [2097152, 2097152, 2097152, 4194304]) (fun _ => rfl) h164 (check_cut (c1 := [10485760, 6291456, 6291456, 10485760]) (c2 := [10485760, 6291456, 6291456, 14680064]) (h := [2097152, 2097152, 2097152, 2097152]) (fun _ => rfl) (check_cut (c1 := [9437184, 6291456, 6291456, 10485760]) (c2 := [11534336, 6291456, 6291456, 10485760]) (h := [1048576, 2097152, 2097152, 2097152]) (fun _ => rfl) (check_cut (c1 := [9437184, 5242880, 6291456, 10485760]) (c2 := [9437184, 7340032, 6291456, 10485760]) (h := [1048576, 1048576, 2097152, 2097152]) (fun _ => rfl) h165 h166) h167) h168))) (check_cut (c1 := [14680064, 2097152, 4194304, 12582912]) (c2 := [14680064, 6291456, 4194304, 12582912]) (h := [2097152, 2097152, 4194304, 4194304]) (fun _ => rfl) h169 (check_cut (c1 := [14680064, 6291456, 2097152, 12582912]) (c2 := [14680064, 6291456, 6291456, 12582912]) (h := [2097152, 2097152, 2097152, 4194304]) (fun _ => rfl) h170 (check_cut (c1 := [14680064, 6291456, 6291456, 10485760]) (c2 := [14680064, 6291456, 6291456, 14680064]) (h := [2097152, 2097152, 2097152, 2097152]) (fun _ => rfl) (check_cut (c1 := [13631488, 6291456, 6291456, 10485760]) (c2 := [15728640, 6291456, 6291456, 10485760]) (h := [1048576, 2097152, 2097152, 2097152]) (fun _ => rfl) h171 h172) h173))))) (check_cut (c1 := [12582912, 4194304, 12582912, 4194304]) (c2 := [12582912, 4194304, 12582912, 12582912]) (h := [4194304, 4194304, 4194304, 4194304]) (fun _ => rfl) (check_cut (c1 := [10485760, 4194304, 12582912, 4194304]) (c2 := [14680064, 4194304, 12582912, 4194304]) (h := [2097152, 4194304, 4194304, 4194304]) (fun _ => rfl) (check_cut (c1 := [10485760, 2097152, 12582912, 4194304]) (c2 := [10485760, 6291456, 12582912, 4194304]) (h := [2097152, 2097152, 4194304, 4194304]) (fun _ => rfl) h174 (check_cut (c1 := [10485760, 6291456, 10485760, 4194304]) (c2 := [10485760, 6291456, 14680064, 4194304]) (h := [2097152, 2097152, 2097152, 4194304]) (fun _ => rfl) (check_cut (c1 := [10485760, 6291456, 10485760, 2097152]) (c2 := [10485760, 6291456, 10485760, 6291456]) (h := [2097152, 2097152, 2097152, 2097152]) (fun _ => rfl) (check_cut (c1 := [9437184, 6291456, 10485760, 2097152]) (c2 := [11534336, 6291456, 10485760, 2097152]) (h := [1048576, 2097152, 2097152, 2097152]) (fun _ => rfl) h175 h176) (check_cut (c1 := [9437184, 6291456, 10485760, 6291456]) (c2 := [11534336, 6291456, 10485760, 6291456]) (h := [1048576, 2097152, 2097152, 2097152]) (fun _ => rfl) h177 h178)) h179)) (check_cut (c1 := [14680064, 2097152, 12582912, 4194304]) (c2 := [14680064, 6291456, 12582912, 4194304]) (h := [2097152, 2097152, 4194304, 4194304]) (fun _ => rfl) h180 (check_cut (c1 := [14680064, 6291456, 10485760, 4194304]) (c2 := [14680064, 6291456, 14680064, 4194304]) (h := [2097152, 2097152, 2097152, 4194304]) (fun _ => rfl) (check_cut (c1 := [14680064, 6291456, 10485760, 2097152]) (c2 := [14680064, 6291456, 10485760, 6291456]) (h := [2097152, 2097152, 2097152, 2097152]) (fun _ => rfl) h181 h182) h183))) (check_cut (c1 := [10485760, 4194304, 12582912, 12582912]) (c2 := [14680064, 4194304, 12582912, 12582912]) (h := [2097152, 4194304, 4194304, 4194304]) (fun _ => rfl) (check_cut (c1 := [10485760, 2097152, 12582912, 12582912]) (c2 := [10485760, 6291456, 12582912, 12582912]) (h := [2097152, 2097152, 4194304, 4194304]) (fun _ => rfl) h184 (check_cut (c1 := [10485760, 6291456, 10485760, 12582912]) (c2 := [10485760, 6291456, 14680064, 12582912]) (h := [2097152, 2097152, 2097152, 4194304]) (fun _ => rfl) (check_cut (c1 := [10485760, 6291456, 10485760, 10485760]) (c2 := [10485760, 6291456, 10485760, 14680064]) (h := [2097152, 2097152, 2097152, 2097152]) (fun _ => rfl) h185 h186) h187)) h188))) (check_cut (c1 := [12582912, 12582912, 4194304, 8388608]) (c2 := [12582912, 12582912, 12582912, 8388608]) (h := [4194304, 4194304, 4194304, 8388608]) (fun _ => rfl) (check_cut (c1 := [12582912, 12582912, 4194304, 4194304]) (c2 := [12582912, 12582912, 4194304, 12582912]) (h := [4194304, 4194304, 4194304, 4194304]) (fun _ => rfl) (check_cut (c1 := [10485760, 12582912, 4194304, 4194304]) (c2 := [14680064, 12582912, 4194304, 4194304]) (h := [2097152, 4194304, 4194304, 4194304]) (fun _ => rfl) (check_cut (c1 := [10485760, 10485760, 4194304, 4194304]) (c2 := [10485760, 14680064, 4194304, 4194304]) (h := [2097152, 2097152, 4194304, 4194304]) (fun _ => rfl) (check_cut (c1 := [10485760, 10485760, 2097152, 4194304]) (c2 := [10485760, 10485760, 6291456, 4194304]) (h := [2097152, 2097152, 2097152, 4194304]) (fun _ => rfl) (check_cut (c1 := [10485760, 10485760, 2097152, 2097152]) (c2 := [10485760, 10485760, 2097152, 6291456]) (h := [2097152, 2097152, 2097152, 2097152]) (fun _ => rfl) (check_cut (c1 := [9437184, 10485760, 2097152, 2097152]) (c2 := [11534336, 10485760, 2097152, 2097152]) (h := [1048576, 2097152, 2097152, 2097152]) (fun _ => rfl) (check_cut (c1 := [9437184, 9437184, 2097152, 2097152]) (c2 := [9437184, 11534336, 2097152, 2097152]) (h := [1048576, 1048576, 2097152, 2097152]) (fun _ => rfl) h189 h190) (check_cut (c1 := [11534336, 9437184, 2097152, 2097152]) (c2 := [11534336, 11534336, 2097152, 2097152]) (h := [1048576, 1048576, 2097152, 2097152]) (fun _ => rfl) h191 h192)) (check_cut (c1 := [9437184, 10485760, 2097152, 6291456]) (c2 := [11534336, 10485760, 2097152, 6291456]) (h := [1048576, 2097152, 2097152, 2097152]) (fun _ => rfl) h193 h194)) (check_cut (c1 := [10485760, 10485760, 6291456, 2097152]) (c2 := [10485760, 10485760, 6291456, 6291456]) (h := [2097152, 2097152, 2097152, 2097152]) (fun _ => rfl) (check_cut (c1 := [9437184, 10485760, 6291456, 2097152]) (c2 := [11534336, 10485760, 6291456, 2097152]) (h := [1048576, 2097152, 2097152, 2097152]) (fun _ => rfl) (check_cut (c1 := [9437184, 9437184, 6291456, 2097152]) (c2 := [9437184, 11534336, 6291456, 2097152]) (h := [1048576, 1048576, 2097152, 2097152]) (fun _ => rfl) (check_cut (c1 := [9437184, 9437184, 5242880, 2097152]) (c2 := [9437184, 9437184, 7340032, 2097152]) (h := [1048576, 1048576, 1048576, 2097152]) (fun _ => rfl) h195 h196) h197) (check_cut (c1 := [11534336, 9437184, 6291456, 2097152]) (c2 := [11534336, 11534336, 6291456, 2097152]) (h := [1048576, 1048576, 2097152, 2097152]) (fun _ => rfl) h198 h199)) (check_cut (c1 := [9437184, 10485760, 6291456, 6291456]) (c2 := [11534336, 10485760, 6291456, 6291456]) (h := [1048576, 2097152, 2097152, 2097152]) (fun _ => rfl) (check_cut (c1 := [9437184, 9437184, 6291456, 6291456]) (c2 := [9437184, 11534336, 6291456, 6291456]) (h := [1048576, 1048576, 2097152, 2097152]) (fun _ => rfl) (check_cut (c1 := [9437184, 9437184, 5242880, 6291456]) (c2 := [9437184, 9437184, 7340032, 6291456]) (h := [1048576, 1048576, 1048576, 2097152]) (fun _ => rfl) h200 (check_cut (c1 := [9437184, 9437184, 7340032, 5242880]) (c2 := [9437184, 9437184, 7340032, 7340032]) (h := [1048576, 1048576, 1048576, 1048576]) (fun _ => rfl) h201 h202)) h203) (check_cut (c1 := [11534336, 9437184, 6291456, 6291456]) (c2 := [11534336, 11534336, 6291456, 6291456]) (h := [1048576, 1048576, 2097152, 2097152]) (fun _ => rfl) (check_cut (c1 := [11534336, 9437184, 5242880, 6291456]) (c2 := [11534336, 9437184, 7340032, 6291456]) (h := [1048576, 1048576, 1048576, 2097152]) (fun _ => rfl) h204 h205) (check_cut (c1 := [11534336, 11534336, 5242880, 6291456]) (c2 := [11534336, 11534336, 7340032, 6291456]) (h := [1048576, 1048576, 1048576, 2097152]) (fun _ => rfl) h206 h207))))) (check_cut (c1 := [10485760, 14680064, 2097152, 4194304]) (c2 := [10485760, 14680064, 6291456, 4194304]) (h := [2097152, 2097152, 2097152, 4194304]) (fun _ => rfl) (check_cut (c1 := [10485760, 14680064, 2097152, 2097152]) (c2 := [10485760, 14680064, 2097152, 6291456]) (h := [2097152, 2097152, 2097152, 2097152]) (fun _ => rfl) h208 h209) (check_cut (c1 := [10485760, 14680064, 6291456, 2097152]) (c2 := [10485760, 14680064, 6291456, 6291456]) (h := [2097152, 2097152, 2097152, 2097152]) (fun _ => rfl) h210 h211))) (check_cut (c1 := [14680064, 10485760, 4194304, 4194304]) (c2 := [14680064, 14680064, 4194304, 4194304]) (h := [2097152, 2097152, 4194304, 4194304]) (fun _ => rfl) (check_cut (c1 := [14680064, 10485760, 2097152, 4194304]) (c2 := [14680064, 10485760, 6291456, 4194304]) (h := [2097152, 2097152, 2097152, 4194304]) (fun _ => rfl) (check_cut (c1 := [14680064, 10485760, 2097152, 2097152]) (c2 := [14680064, 10485760, 2097152, 6291456]) (h := [2097152, 2097152, 2097152, 2097152]) (fun _ => rfl) (check_cut (c1 := [13631488, 10485760, 2097152, 2097152]) (c2 := [15728640, 10485760, 2097152, 2097152]) (h := [1048576, 2097152, 2097152, 2097152]) (fun _ => rfl) (check_cut (c1 := [13631488, 9437184, 2097152, 2097152]) (c2 := [13631488, 11534336, 2097152, 2097152]) (h := [1048576, 1048576, 2097152, 2097152]) (fun _ => rfl) (check_cut (c1 := [13631488, 9437184, 1048576, 2097152]) (c2 := [13631488, 9437184, 3145728, 2097152]) (h := [1048576, 1048576, 1048576, 2097152]) (fun _ => rfl) h212 h213) h214) (check_cut (c1 := [15728640, 9437184, 2097152, 2097152]) (c2 := [15728640, 11534336, 2097152, 2097152]) (h := [1048576, 1048576, 2097152, 2097152]) (fun _ => rfl) (check_cut (c1 := [15728640, 9437184, 1048576, 2097152]) (c2 := [15728640, 9437184, 3145728, 2097152]) (h := [1048576, 1048576, 1048576, 2097152]) (fun _ => rfl) (check_cut (c1 := [15728640, 9437184, 1048576, 1048576]) (c2 := [15728640, 9437184, 1048576, 3145728]) (h := [1048576, 1048576, 1048576, 1048576]) (fun _ => rfl) h215 h216) h217) (check_cut (c1 := [15728640, 11534336, 1048576, 2097152]) (c2 := [15728640, 11534336, 3145728, 2097152]) (h := [1048576, 1048576, 1048576, 2097152]) (fun _ => rfl) h218 h219))) (check_cut (c1 := [13631488, 10485760, 2097152, 6291456]) (c2 := [15728640, 10485760, 2097152, 6291456]) (h := [1048576, 2097152, 2097152, 2097152]) (fun _ => rfl) h220 h221)) (check_cut (c1 := [14680064, 10485760, 6291456, 2097152]) (c2 := [14680064, 10485760, 6291456, 6291456]) (h := [2097152, 2097152, 2097152, 2097152]) (fun _ => rfl) (check_cut (c1 := [13631488, 10485760, 6291456, 2097152]) (c2 := [15728640, 10485760, 6291456, 2097152]) (h := [1048576, 2097152, 2097152, 2097152]) (fun _ => rfl) (check_cut (c1 := [13631488, 9437184, 6291456, 2097152]) (c2 := [13631488, 11534336, 6291456, 2097152]) (h := [1048576, 1048576, 2097152, 2097152]) (fun _ => rfl) h222 h223) (check_cut (c1 := [15728640, 9437184, 6291456, 2097152]) (c2 := [15728640, 11534336, 6291456, 2097152]) (h := [1048576, 1048576, 2097152, 2097152]) (fun _ => rfl) (check_cut (c1 := [15728640, 9437184, 5242880, 2097152]) (c2 := [15728640, 9437184, 7340032, 2097152]) (h := [1048576, 1048576, 1048576, 2097152]) (fun _ => rfl) h224 h225) (check_cut (c1 := [15728640, 11534336, 5242880, 2097152]) (c2 := [15728640, 11534336, 7340032, 2097152]) (h := [1048576, 1048576, 1048576, 2097152]) (fun _ => rfl) h226 h227))) (check_cut (c1 := [13631488, 10485760, 6291456, 6291456]) (c2 := [15728640, 10485760, 6291456, 6291456]) (h := [1048576, 2097152, 2097152, 2097152]) (fun _ => rfl) (check_cut (c1 := [13631488, 9437184, 6291456, 6291456]) (c2 := [13631488, 11534336, 6291456, 6291456]) (h := [1048576, 1048576, 2097152, 2097152]) (fun _ => rfl) (check_cut (c1 := [13631488, 9437184, 5242880, 6291456]) (c2 := [13631488, 9437184, 7340032, 6291456]) (h := [1048576, 1048576, 1048576, 2097152]) (fun _ => rfl) h228 h229) h230) h231))) (check_cut (c1 := [14680064, 14680064, 2097152, 4194304]) (c2 := [14680064, 14680064, 6291456, 4194304]) (h := [2097152, 2097152, 2097152, 4194304]) (fun _ => rfl) (check_cut (c1 := [14680064, 14680064, 2097152, 2097152]) (c2 := [14680064, 14680064, 2097152, 6291456]) (h := [2097152, 2097152, 2097152, 2097152]) (fun _ => rfl) (check_cut (c1 := [13631488, 14680064, 2097152, 2097152]) (c2 := [15728640, 14680064, 2097152, 2097152]) (h := [1048576, 2097152, 2097152, 2097152]) (fun _ => rfl) (check_cut (c1 := [13631488, 13631488, 2097152, 2097152]) (c2 := [13631488, 15728640, 2097152, 2097152]) (h := [1048576, 1048576, 2097152, 2097152]) (fun _ => rfl) h232 h233) (check_cut (c1 := [15728640, 13631488, 2097152, 2097152]) (c2 := [15728640, 15728640, 2097152, 2097152]) (h := [1048576, 1048576, 2097152, 2097152]) (fun _ => rfl) h234 h235)) h236) (check_cut (c1 := [14680064, 14680064, 6291456, 2097152]) (c2 := [14680064, 14680064, 6291456, 6291456]) (h := [2097152, 2097152, 2097152, 2097152]) (fun _ => rfl) (check_cut (c1 := [13631488, 14680064, 6291456, 2097152]) (c2 := [15728640, 14680064, 6291456, 2097152]) (h := [1048576, 2097152, 2097152, 2097152]) (fun _ => rfl) (check_cut (c1 := [13631488, 13631488, 6291456, 2097152]) (c2 := [13631488, 15728640, 6291456, 2097152]) (h := [1048576, 1048576, 2097152, 2097152]) (fun _ => rfl) h237 h238) (check_cut (c1 := [15728640, 13631488, 6291456, 2097152]) (c2 := [15728640, 15728640, 6291456, 2097152]) (h := [1048576, 1048576, 2097152, 2097152]) (fun _ => rfl) h239 h240)) h241)))) (check_cut (c1 := [10485760, 12582912, 4194304, 12582912]) (c2 := [14680064, 12582912, 4194304, 12582912]) (h := [2097152, 4194304, 4194304, 4194304]) (fun _ => rfl) (check_cut (c1 := [10485760, 10485760, 4194304, 12582912]) (c2 := [10485760, 14680064, 4194304, 12582912]) (h := [2097152, 2097152, 4194304, 4194304]) (fun _ => rfl) (check_cut (c1 := [10485760, 10485760, 2097152, 12582912]) (c2 := [10485760, 10485760, 6291456, 12582912]) (h := [2097152, 2097152, 2097152, 4194304]) (fun _ => rfl) h242 (check_cut (c1 := [10485760, 10485760, 6291456, 10485760]) (c2 := [10485760, 10485760, 6291456, 14680064]) (h := [2097152, 2097152, 2097152, 2097152]) (fun _ => rfl) (check_cut (c1 := [9437184, 10485760, 6291456, 10485760]) (c2 := [11534336, 10485760, 6291456, 10485760]) (h := [1048576, 2097152, 2097152, 2097152]) (fun _ => rfl) h243 h244) h245)) h246) h247)) (check_cut (c1 := [12582912, 12582912, 12582912, 4194304]) (c2 := [12582912, 12582912, 12582912, 12582912]) (h := [4194304, 4194304, 4194304, 4194304]) (fun _ => rfl) (check_cut (c1 := [10485760, 12582912, 12582912, 4194304]) (c2 := [14680064, 12582912, 12582912, 4194304]) (h := [2097152, 4194304, 4194304, 4194304]) (fun _ => rfl) (check_cut (c1 := [10485760, 10485760, 12582912, 4194304]) (c2 := [10485760, 14680064, 12582912, 4194304]) (h := [2097152, 2097152, 4194304, 4194304]) (fun _ => rfl) (check_cut (c1 := [10485760, 10485760, 10485760, 4194304]) (c2 := [10485760, 10485760, 14680064, 4194304]) (h := [2097152, 2097152, 2097152, 4194304]) (fun _ => rfl) (check_cut (c1 := [10485760, 10485760, 10485760, 2097152]) (c2 := [10485760, 10485760, 10485760, 6291456]) (h := [2097152, 2097152, 2097152, 2097152]) (fun _ => rfl) (check_cut (c1 := [9437184, 10485760, 10485760, 2097152]) (c2 := [11534336, 10485760, 10485760, 2097152]) (h := [1048576, 2097152, 2097152, 2097152]) (fun _ => rfl) (check_cut (c1 := [9437184, 9437184, 10485760, 2097152]) (c2 := [9437184, 11534336, 10485760, 2097152]) (h := [1048576, 1048576, 2097152, 2097152]) (fun _ => rfl) h248 h249) (check_cut (c1 := [11534336, 9437184, 10485760, 2097152]) (c2 := [11534336, 11534336, 10485760, 2097152]) (h := [1048576, 1048576, 2097152, 2097152]) (fun _ => rfl) h250 h251)) (check_cut (c1 := [9437184, 10485760, 10485760, 6291456]) (c2 := [11534336, 10485760, 10485760, 6291456]) (h := [1048576, 2097152, 2097152, 2097152]) (fun _ => rfl) (check_cut (c1 := [9437184, 9437184, 10485760, 6291456]) (c2 := [9437184, 11534336, 10485760, 6291456]) (h := [1048576, 1048576, 2097152, 2097152]) (fun _ => rfl) (check_cut (c1 := [9437184, 9437184, 9437184, 6291456]) (c2 := [9437184, 9437184, 11534336, 6291456]) (h := [1048576, 1048576, 1048576, 2097152]) (fun _ => rfl) (check_cut (c1 := [9437184, 9437184, 9437184, 5242880]) (c2 := [9437184, 9437184, 9437184, 7340032]) (h := [1048576, 1048576, 1048576, 1048576]) (fun _ => rfl) h252 h253) h254) h255) (check_cut (c1 := [11534336, 9437184, 10485760, 6291456]) (c2 := [11534336, 11534336, 10485760, 6291456]) (h := [1048576, 1048576, 2097152, 2097152]) (fun _ => rfl) h256 h257))) h258) h259) (check_cut (c1 := [14680064, 10485760, 12582912, 4194304]) (c2 := [14680064, 14680064, 12582912, 4194304]) (h := [2097152, 2097152, 4194304, 4194304]) (fun _ => rfl) (check_cut (c1 := [14680064, 10485760, 10485760, 4194304]) (c2 := [14680064, 10485760, 14680064, 4194304]) (h := [2097152, 2097152, 2097152, 4194304]) (fun _ => rfl) (check_cut (c1 := [14680064, 10485760, 10485760, 2097152]) (c2 := [14680064, 10485760, 10485760, 6291456]) (h := [2097152, 2097152, 2097152, 2097152]) (fun _ => rfl) (check_cut (c1 := [13631488, 10485760, 10485760, 2097152]) (c2 := [15728640, 10485760, 10485760, 2097152]) (h := [1048576, 2097152, 2097152, 2097152]) (fun _ => rfl) (check_cut (c1 := [13631488, 9437184, 10485760, 2097152]) (c2 := [13631488, 11534336, 10485760, 2097152]) (h := [1048576, 1048576, 2097152, 2097152]) (fun _ => rfl) h260 h261) h262) h263) h264) h265)) h266))))

end FastNoise.NormCheck.Super4
