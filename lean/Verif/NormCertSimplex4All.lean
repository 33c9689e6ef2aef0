import Verif.NormCheckLemmas
import Verif.NormCertSimplex4P0
import Verif.NormCertSimplex4P1
import Verif.NormCertSimplex4P2
import Verif.NormCertSimplex4P3
import Verif.NormCertSimplex4P4
import Verif.NormCertSimplex4P5
/-! Generated by tools/normcert/gen.py: a certificate for the checker `Verif.NormCheck`. -/
namespace FastNoise.NormCheck.Simplex4
open FastNoise.RangeCheck (Tree)

def tree : Tree := (.cut 0 (.cut 1 (.cut 2 (.cut 3 (.cut 0 (.cut 1 (.cut 2 (.cut 3 (.cut 0 (.cut 1 t0 t1) (.cut 1 t2 (.cut 2 t3 t4))) t5) (.cut 3 t6 t7)) (.cut 2 t8 (.cut 3 t9 t10))) (.cut 1 (.cut 2 (.cut 3 (.cut 0 (.cut 1 (.cut 2 (.cut 3 t11 t12) t13) t14) (.cut 1 (.cut 2 (.cut 3 (.cut 0 (.cut 1 t15 t16) (.cut 1 (.cut 2 t17 t18) t19)) t20) t21) (.cut 2 (.cut 3 t22 t23) t24))) (.cut 0 t25 t26)) (.cut 3 (.cut 0 t27 t28) (.cut 0 t29 t30))) (.cut 2 (.cut 3 (.cut 0 (.cut 1 (.cut 2 t31 t32) t33) (.cut 1 (.cut 2 t34 (.cut 3 t35 t36)) (.cut 2 t37 t38))) (.cut 0 t39 t40)) (.cut 3 (.cut 0 (.cut 1 (.cut 2 (.cut 3 t41 t42) t43) t44) (.cut 1 (.cut 2 (.cut 3 t45 t46) t47) (.cut 2 t48 t49))) (.cut 0 (.cut 1 (.cut 2 (.cut 3 t50 t51) t52) (.cut 2 t53 t54)) (.cut 1 (.cut 2 (.cut 3 t55 t56) (.cut 3 t57 t58)) (.cut 2 (.cut 3 (.cut 0 t59 t60) t61) (.cut 3 (.cut 0 t62 t63) (.cut 0 (.cut 1 (.cut 2 t64 t65) t66) (.cut 1 (.cut 2 t67 t68) (.cut 2 t69 (.cut 3 t70 t71)))))))))))) (.cut 0 t72 (.cut 1 t73 (.cut 2 t74 (.cut 3 (.cut 0 t75 (.cut 1 t76 (.cut 2 t77 (.cut 3 (.cut 0 t78 t79) t80)))) t81))))) (.cut 3 (.cut 0 t82 (.cut 1 t83 (.cut 2 (.cut 3 t84 (.cut 0 t85 (.cut 1 t86 (.cut 2 (.cut 3 t87 t88) t89)))) t90))) (.cut 0 t91 (.cut 1 t92 (.cut 2 (.cut 3 (.cut 0 t93 t94) t95) t96))))) (.cut 2 (.cut 3 (.cut 0 t97 (.cut 1 (.cut 2 t98 (.cut 3 t99 (.cut 0 t100 (.cut 1 (.cut 2 t101 t102) t103)))) t104)) t105) (.cut 3 (.cut 0 t106 (.cut 1 (.cut 2 (.cut 3 t107 (.cut 0 t108 (.cut 1 t109 t110))) t111) t112)) (.cut 0 t113 t114)))) (.cut 1 (.cut 2 (.cut 3 (.cut 0 (.cut 1 (.cut 2 (.cut 3 (.cut 0 (.cut 1 (.cut 2 (.cut 3 (.cut 0 (.cut 1 (.cut 2 t115 t116) t117) (.cut 1 t118 t119)) t120) t121) (.cut 2 (.cut 3 t122 t123) (.cut 3 t124 t125))) (.cut 1 (.cut 2 (.cut 3 (.cut 0 (.cut 1 t126 t127) t128) t129) t130) (.cut 2 (.cut 3 t131 t132) t133))) t134) (.cut 3 (.cut 0 t135 t136) t137)) (.cut 2 (.cut 3 (.cut 0 (.cut 1 t138 t139) (.cut 1 t140 t141)) (.cut 0 t142 t143)) (.cut 3 (.cut 0 (.cut 1 t144 t145) (.cut 1 t146 t147)) (.cut 0 (.cut 1 (.cut 2 t148 t149) (.cut 2 t150 (.cut 3 t151 (.cut 0 t152 t153)))) (.cut 1 t154 (.cut 2 t155 t156)))))) (.cut 1 (.cut 2 (.cut 3 (.cut 0 (.cut 1 (.cut 2 t157 t158) (.cut 2 t159 (.cut 3 t160 t161))) (.cut 1 (.cut 2 t162 t163) t164)) (.cut 0 t165 t166)) (.cut 3 (.cut 0 t167 t168) t169)) (.cut 2 (.cut 3 (.cut 0 (.cut 1 (.cut 2 t170 t171) (.cut 2 t172 t173)) (.cut 1 (.cut 2 (.cut 3 (.cut 0 t174 t175) t176) (.cut 3 t177 t178)) (.cut 2 (.cut 3 (.cut 0 t179 (.cut 1 t180 (.cut 2 t181 t182))) t183) (.cut 3 t184 t185)))) (.cut 0 t186 t187)) (.cut 3 (.cut 0 (.cut 1 t188 t189) (.cut 1 (.cut 2 t190 t191) t192)) (.cut 0 (.cut 1 t193 t194) (.cut 1 t195 t196)))))) (.cut 0 (.cut 1 t197 (.cut 2 t198 (.cut 3 (.cut 0 (.cut 1 t199 t200) t201) t202))) t203)) (.cut 3 (.cut 0 (.cut 1 t204 (.cut 2 (.cut 3 t205 (.cut 0 (.cut 1 t206 (.cut 2 (.cut 3 t207 t208) t209)) t210)) t211)) (.cut 1 t212 (.cut 2 (.cut 3 t213 t214) t215))) (.cut 0 (.cut 1 t216 (.cut 2 (.cut 3 (.cut 0 t217 t218) t219) t220)) t221))) (.cut 2 (.cut 3 (.cut 0 (.cut 1 (.cut 2 (.cut 3 (.cut 0 t222 (.cut 1 t223 (.cut 2 t224 t225))) t226) (.cut 3 (.cut 0 t227 t228) (.cut 0 (.cut 1 (.cut 2 t229 (.cut 3 t230 (.cut 0 (.cut 1 t231 t232) t233))) t234) (.cut 1 (.cut 2 t235 t236) t237)))) (.cut 2 (.cut 3 t238 t239) t240)) (.cut 1 (.cut 2 (.cut 3 (.cut 0 (.cut 1 (.cut 2 t241 t242) (.cut 2 (.cut 3 t243 t244) t245)) (.cut 1 (.cut 2 (.cut 3 (.cut 0 t246 (.cut 1 (.cut 2 t247 t248) (.cut 2 t249 t250))) t251) t252) (.cut 2 (.cut 3 (.cut 0 t253 (.cut 1 t254 t255)) t256) (.cut 3 t257 t258)))) (.cut 0 t259 t260)) (.cut 3 (.cut 0 t261 (.cut 1 t262 (.cut 2 t263 t264))) (.cut 0 t265 t266))) (.cut 2 (.cut 3 (.cut 0 (.cut 1 (.cut 2 (.cut 3 t267 t268) (.cut 3 t269 t270)) t271) (.cut 1 (.cut 2 t272 (.cut 3 t273 t274)) (.cut 2 t275 t276))) t277) (.cut 3 (.cut 0 (.cut 1 (.cut 2 t278 t279) t280) (.cut 1 (.cut 2 t281 t282) t283)) t284)))) (.cut 0 (.cut 1 (.cut 2 t285 (.cut 3 (.cut 0 (.cut 1 t286 t287) t288) t289)) t290) t291)) (.cut 3 (.cut 0 (.cut 1 (.cut 2 (.cut 3 (.cut 0 t292 (.cut 1 t293 t294)) (.cut 0 (.cut 1 (.cut 2 (.cut 3 t295 (.cut 0 (.cut 1 t296 t297) t298)) t299) t300) t301)) t302) t303) (.cut 1 (.cut 2 (.cut 3 (.cut 0 (.cut 1 t304 t305) t306) t307) t308) t309)) t310))))
theorem checked : check par tree [8388608, 8388608, 8388608, 8388608] [8388608, 8388608, 8388608, 8388608] st = true := (check_cut (c1 := [4194304, 8388608, 8388608, 8388608]) (c2 := [12582912, 8388608, 8388608, 8388608]) (h := [4194304, 8388608, 8388608, 8388608]) (fun _ => rfl) (check_cut (c1 := [4194304, 4194304, 8388608, 8388608]) (c2 := [4194304, 12582912, 8388608, 8388608]) (h := [4194304, 4194304, 8388608, 8388608]) (fun _ => rfl) (check_cut (c1 := [4194304, 4194304, 4194304, 8388608]) (c2 := [4194304, 4194304, 12582912, 8388608]) (h := [4194304, 4194304, 4194304, 8388608]) (fun _ => rfl) (check_cut (c1 := [4194304, 4194304, 4194304, 4194304]) (c2 := [4194304, 4194304, 4194304, 12582912]) (h := [4194304, 4194304, 4194304, 4194304]) (fun _ => rfl) (check_cut (c1 := [2097152, 4194304, 4194304, 4194304]) (c2 := [6291456, 4194304, 4194304, 4194304]) (h := [2097152, 4194304, 4194304, 4194304]) (fun _ => rfl) (check_cut (c1 := [2097152, 2097152, 4194304, 4194304]) (c2 := [2097152, 6291456, 4194304, 4194304]) (h := [2097152, 2097152, 4194304, 4194304]) (fun _ => rfl) (check_cut (c1 := [2097152, 2097152, 2097152, 4194304]) (c2 := [2097152, 2097152, 6291456, 4194304]) (h := [2097152, 2097152, 2097152, 4194304]) (fun _ => rfl) (check_cut (c1 := [2097152, 2097152, 2097152, 2097152]) (c2 := [2097152, 2097152, 2097152, 6291456]) (h := [2097152, 2097152, 2097152, 2097152]) (fun _ => rfl) (check_cut (c1 := [1048576, 2097152, 2097152, 2097152]) (c2 := [3145728, 2097152, 2097152, 2097152]) (h := [1048576, 2097152, 2097152, 2097152]) (fun _ => rfl) (check_cut (c1 := [1048576, 1048576, 2097152, 2097152]) (c2 := [1048576, 3145728, 2097152, 2097152]) (h := [1048576, 1048576, 2097152, 2097152]) (fun _ => rfl) h0 h1) (check_cut (c1 := [3145728, 1048576, 2097152, 2097152]) (c2 := [3145728, 3145728, 2097152, 2097152]) (h := [1048576, 1048576, 2097152, 2097152]) (fun _ => rfl) h2 (check_cut (c1 := [3145728, 3145728, 1048576, 2097152]) (c2 := [3145728, 3145728, 3145728, 2097152]) (h := [1048576, 1048576, 1048576, 2097152]) (fun _ => rfl) h3 h4))) h5) (check_cut (c1 := [2097152, 2097152, 6291456, 2097152]) (c2 := [2097152, 2097152, 6291456, 6291456]) (h := [2097152, 2097152, 2097152, 2097152]) (fun _ => rfl) h6 h7)) (check_cut (c1 := [2097152, 6291456, 2097152, 4194304]) (c2 := [2097152, 6291456, 6291456, 4194304]) (h := [2097152, 2097152, 2097152, 4194304]) (fun _ => rfl) h8 (check_cut (c1 := [2097152, 6291456, 6291456, 2097152]) (c2 := [2097152, 6291456, 6291456, 6291456]) (h := [2097152, 2097152, 2097152, 2097152]) (fun _ => rfl) h9 h10))) (check_cut (c1 := [6291456, 2097152, 4194304, 4194304]) (c2 := [6291456, 6291456, 4194304, 4194304]) (h := [2097152, 2097152, 4194304, 4194304]) (fun _ => rfl) (check_cut (c1 := [6291456, 2097152, 2097152, 4194304]) (c2 := [6291456, 2097152, 6291456, 4194304]) (h := [2097152, 2097152, 2097152, 4194304]) (fun _ => rfl) (check_cut (c1 := [6291456, 2097152, 2097152, 2097152]) (c2 := [6291456, 2097152, 2097152, 6291456]) (h := [2097152, 2097152, 2097152, 2097152]) (fun _ => rfl) (check_cut (c1 := [5242880, 2097152, 2097152, 2097152]) (c2 := [7340032, 2097152, 2097152, 2097152]) (h := [1048576, 2097152, 2097152, 2097152]) (fun _ => rfl) (check_cut (c1 := [5242880, 1048576, 2097152, 2097152]) (c2 := [5242880, 3145728, 2097152, 2097152]) (h := [1048576, 1048576, 2097152, 2097152]) (fun _ => rfl) (check_cut (c1 := [5242880, 1048576, 1048576, 2097152]) (c2 := [5242880, 1048576, 3145728, 2097152]) (h := [1048576, 1048576, 1048576, 2097152]) (fun _ => rfl) (check_cut (c1 := [5242880, 1048576, 1048576, 1048576]) (c2 := [5242880, 1048576, 1048576, 3145728]) (h := [1048576, 1048576, 1048576, 1048576]) (fun _ => rfl) h11 h12) h13) h14) (check_cut (c1 := [7340032, 1048576, 2097152, 2097152]) (c2 := [7340032, 3145728, 2097152, 2097152]) (h := [1048576, 1048576, 2097152, 2097152]) (fun _ => rfl) (check_cut (c1 := [7340032, 1048576, 1048576, 2097152]) (c2 := [7340032, 1048576, 3145728, 2097152]) (h := [1048576, 1048576, 1048576, 2097152]) (fun _ => rfl) (check_cut (c1 := [7340032, 1048576, 1048576, 1048576]) (c2 := [7340032, 1048576, 1048576, 3145728]) (h := [1048576, 1048576, 1048576, 1048576]) (fun _ => rfl) (check_cut (c1 := [6815744, 1048576, 1048576, 1048576]) (c2 := [7864320, 1048576, 1048576, 1048576]) (h := [524288, 1048576, 1048576, 1048576]) (fun _ => rfl) (check_cut (c1 := [6815744, 524288, 1048576, 1048576]) (c2 := [6815744, 1572864, 1048576, 1048576]) (h := [524288, 524288, 1048576, 1048576]) (fun _ => rfl) h15 h16) (check_cut (c1 := [7864320, 524288, 1048576, 1048576]) (c2 := [7864320, 1572864, 1048576, 1048576]) (h := [524288, 524288, 1048576, 1048576]) (fun _ => rfl) (check_cut (c1 := [7864320, 524288, 524288, 1048576]) (c2 := [7864320, 524288, 1572864, 1048576]) (h := [524288, 524288, 524288, 1048576]) (fun _ => rfl) h17 h18) h19)) h20) h21) (check_cut (c1 := [7340032, 3145728, 1048576, 2097152]) (c2 := [7340032, 3145728, 3145728, 2097152]) (h := [1048576, 1048576, 1048576, 2097152]) (fun _ => rfl) (check_cut (c1 := [7340032, 3145728, 1048576, 1048576]) (c2 := [7340032, 3145728, 1048576, 3145728]) (h := [1048576, 1048576, 1048576, 1048576]) (fun _ => rfl) h22 h23) h24))) (check_cut (c1 := [5242880, 2097152, 2097152, 6291456]) (c2 := [7340032, 2097152, 2097152, 6291456]) (h := [1048576, 2097152, 2097152, 2097152]) (fun _ => rfl) h25 h26)) (check_cut (c1 := [6291456, 2097152, 6291456, 2097152]) (c2 := [6291456, 2097152, 6291456, 6291456]) (h := [2097152, 2097152, 2097152, 2097152]) (fun _ => rfl) (check_cut (c1 := [5242880, 2097152, 6291456, 2097152]) (c2 := [7340032, 2097152, 6291456, 2097152]) (h := [1048576, 2097152, 2097152, 2097152]) (fun _ => rfl) h27 h28) (check_cut (c1 := [5242880, 2097152, 6291456, 6291456]) (c2 := [7340032, 2097152, 6291456, 6291456]) (h := [1048576, 2097152, 2097152, 2097152]) (fun _ => rfl) h29 h30))) (check_cut (c1 := [6291456, 6291456, 2097152, 4194304]) (c2 := [6291456, 6291456, 6291456, 4194304]) (h := [2097152, 2097152, 2097152, 4194304]) (fun _ => rfl) (check_cut (c1 := [6291456, 6291456, 2097152, 2097152]) (c2 := [6291456, 6291456, 2097152, 6291456]) (h := [2097152, 2097152, 2097152, 2097152]) (fun _ => rfl) (check_cut (c1 := [5242880, 6291456, 2097152, 2097152]) (c2 := [7340032, 6291456, 2097152, 2097152]) (h := [1048576, 2097152, 2097152, 2097152]) (fun _ => rfl) (check_cut (c1 := [5242880, 5242880, 2097152, 2097152]) (c2 := [5242880, 7340032, 2097152, 2097152]) (h := [1048576, 1048576, 2097152, 2097152]) (fun _ => rfl) (check_cut (c1 := [5242880, 5242880, 1048576, 2097152]) (c2 := [5242880, 5242880, 3145728, 2097152]) (h := [1048576, 1048576, 1048576, 2097152]) (fun _ => rfl) h31 h32) h33) (check_cut (c1 := [7340032, 5242880, 2097152, 2097152]) (c2 := [7340032, 7340032, 2097152, 2097152]) (h := [1048576, 1048576, 2097152, 2097152]) (fun _ => rfl) (check_cut (c1 := [7340032, 5242880, 1048576, 2097152]) (c2 := [7340032, 5242880, 3145728, 2097152]) (h := [1048576, 1048576, 1048576, 2097152]) (fun _ => rfl) h34 (check_cut (c1 := [7340032, 5242880, 3145728, 1048576]) (c2 := [7340032, 5242880, 3145728, 3145728]) (h := [1048576, 1048576, 1048576, 1048576]) (fun _ => rfl) h35 h36)) (check_cut (c1 := [7340032, 7340032, 1048576, 2097152]) (c2 := [7340032, 7340032, 3145728, 2097152]) (h := [1048576, 1048576, 1048576, 2097152]) (fun _ => rfl) h37 h38))) (check_cut (c1 := [5242880, 6291456, 2097152, 6291456]) (c2 := [7340032, 6291456, 2097152, 6291456]) (h := [1048576, 2097152, 2097152, 2097152]) (fun _ => rfl) h39 h40)) (check_cut (c1 := [6291456, 6291456, 6291456, 2097152]) (c2 := [6291456, 6291456, 6291456, 6291456]) (h := [2097152, 2097152, 2097152, 2097152]) (fun _ => rfl) (check_cut (c1 := [5242880, 6291456, 6291456, 2097152]) (c2 := [7340032, 6291456, 6291456, 2097152]) (h := [1048576, 2097152, 2097152, 2097152]) (fun _ => rfl) (check_cut (c1 := [5242880, 5242880, 6291456, 2097152]) (c2 := [5242880, 7340032, 6291456, 2097152]) (h := [1048576, 1048576, 2097152, 2097152]) (fun _ => rfl) (check_cut (c1 := [5242880, 5242880, 5242880, 2097152]) (c2 := [5242880, 5242880, 7340032, 2097152]) (h := [1048576, 1048576, 1048576, 2097152]) (fun _ => rfl) (check_cut (c1 := [5242880, 5242880, 5242880, 1048576]) (c2 := [5242880, 5242880, 5242880, 3145728]) (h := [1048576, 1048576, 1048576, 1048576]) (fun _ => rfl) h41 h42) h43) h44) (check_cut (c1 := [7340032, 5242880, 6291456, 2097152]) (c2 := [7340032, 7340032, 6291456, 2097152]) (h := [1048576, 1048576, 2097152, 2097152]) (fun _ => rfl) (check_cut (c1 := [7340032, 5242880, 5242880, 2097152]) (c2 := [7340032, 5242880, 7340032, 2097152]) (h := [1048576, 1048576, 1048576, 2097152]) (fun _ => rfl) (check_cut (c1 := [7340032, 5242880, 5242880, 1048576]) (c2 := [7340032, 5242880, 5242880, 3145728]) (h := [1048576, 1048576, 1048576, 1048576]) (fun _ => rfl) h45 h46) h47) (check_cut (c1 := [7340032, 7340032, 5242880, 2097152]) (c2 := [7340032, 7340032, 7340032, 2097152]) (h := [1048576, 1048576, 1048576, 2097152]) (fun _ => rfl) h48 h49))) (check_cut (c1 := [5242880, 6291456, 6291456, 6291456]) (c2 := [7340032, 6291456, 6291456, 6291456]) (h := [1048576, 2097152, 2097152, 2097152]) (fun _ => rfl) (check_cut (c1 := [5242880, 5242880, 6291456, 6291456]) (c2 := [5242880, 7340032, 6291456, 6291456]) (h := [1048576, 1048576, 2097152, 2097152]) (fun _ => rfl) (check_cut (c1 := [5242880, 5242880, 5242880, 6291456]) (c2 := [5242880, 5242880, 7340032, 6291456]) (h := [1048576, 1048576, 1048576, 2097152]) (fun _ => rfl) (check_cut (c1 := [5242880, 5242880, 5242880, 5242880]) (c2 := [5242880, 5242880, 5242880, 7340032]) (h := [1048576, 1048576, 1048576, 1048576]) (fun _ => rfl) h50 h51) h52) (check_cut (c1 := [5242880, 7340032, 5242880, 6291456]) (c2 := [5242880, 7340032, 7340032, 6291456]) (h := [1048576, 1048576, 1048576, 2097152]) (fun _ => rfl) h53 h54)) (check_cut (c1 := [7340032, 5242880, 6291456, 6291456]) (c2 := [7340032, 7340032, 6291456, 6291456]) (h := [1048576, 1048576, 2097152, 2097152]) (fun _ => rfl) (check_cut (c1 := [7340032, 5242880, 5242880, 6291456]) (c2 := [7340032, 5242880, 7340032, 6291456]) (h := [1048576, 1048576, 1048576, 2097152]) (fun _ => rfl) (check_cut (c1 := [7340032, 5242880, 5242880, 5242880]) (c2 := [7340032, 5242880, 5242880, 7340032]) (h := [1048576, 1048576, 1048576, 1048576]) (fun _ => rfl) h55 h56) (check_cut (c1 := [7340032, 5242880, 7340032, 5242880]) (c2 := [7340032, 5242880, 7340032, 7340032]) (h := [1048576, 1048576, 1048576, 1048576]) (fun _ => rfl) h57 h58)) (check_cut (c1 := [7340032, 7340032, 5242880, 6291456]) (c2 := [7340032, 7340032, 7340032, 6291456]) (h := [1048576, 1048576, 1048576, 2097152]) (fun _ => rfl) (check_cut (c1 := [7340032, 7340032, 5242880, 5242880]) (c2 := [7340032, 7340032, 5242880, 7340032]) (h := [1048576, 1048576, 1048576, 1048576]) (fun _ => rfl) (check_cut (c1 := [6815744, 7340032, 5242880, 5242880]) (c2 := [7864320, 7340032, 5242880, 5242880]) (h := [524288, 1048576, 1048576, 1048576]) (fun _ => rfl) h59 h60) h61) (check_cut (c1 := [7340032, 7340032, 7340032, 5242880]) (c2 := [7340032, 7340032, 7340032, 7340032]) (h := [1048576, 1048576, 1048576, 1048576]) (fun _ => rfl) (check_cut (c1 := [6815744, 7340032, 7340032, 5242880]) (c2 := [7864320, 7340032, 7340032, 5242880]) (h := [524288, 1048576, 1048576, 1048576]) (fun _ => rfl) h62 h63) (check_cut (c1 := [6815744, 7340032, 7340032, 7340032]) (c2 := [7864320, 7340032, 7340032, 7340032]) (h := [524288, 1048576, 1048576, 1048576]) (fun _ => rfl) (check_cut (c1 := [6815744, 6815744, 7340032, 7340032]) (c2 := [6815744, 7864320, 7340032, 7340032]) (h := [524288, 524288, 1048576, 1048576]) (fun _ => rfl) (check_cut (c1 := [6815744, 6815744, 6815744, 7340032]) (c2 := [6815744, 6815744, 7864320, 7340032]) (h := [524288, 524288, 524288, 1048576]) (fun _ => rfl) h64 h65) h66) (check_cut (c1 := [7864320, 6815744, 7340032, 7340032]) (c2 := [7864320, 7864320, 7340032, 7340032]) (h := [524288, 524288, 1048576, 1048576]) (fun _ => rfl) (check_cut (c1 := [7864320, 6815744, 6815744, 7340032]) (c2 := [7864320, 6815744, 7864320, 7340032]) (h := [524288, 524288, 524288, 1048576]) (fun _ => rfl) h67 h68) (check_cut (c1 := [7864320, 7864320, 6815744, 7340032]) (c2 := [7864320, 7864320, 7864320, 7340032]) (h := [524288, 524288, 524288, 1048576]) (fun _ => rfl) h69 (check_cut (c1 := [7864320, 7864320, 7864320, 6815744]) (c2 := [7864320, 7864320, 7864320, 7864320]) (h := [524288, 524288, 524288, 524288]) (fun _ => rfl) h70 h71)))))))))))) (check_cut (c1 := [2097152, 4194304, 4194304, 12582912]) (c2 := [6291456, 4194304, 4194304, 12582912]) (h := [2097152, 4194304, 4194304, 4194304]) (fun _ => rfl) h72 (check_cut (c1 := [6291456, 2097152, 4194304, 12582912]) (c2 := [6291456, 6291456, 4194304, 12582912]) (h := [2097152, 2097152, 4194304, 4194304]) (fun _ => rfl) h73 (check_cut (c1 := [6291456, 6291456, 2097152, 12582912]) (c2 := [6291456, 6291456, 6291456, 12582912]) (h := [2097152, 2097152, 2097152, 4194304]) (fun _ => rfl) h74 (check_cut (c1 := [6291456, 6291456, 6291456, 10485760]) (c2 := [6291456, 6291456, 6291456, 14680064]) (h := [2097152, 2097152, 2097152, 2097152]) (fun _ => rfl) (check_cut (c1 := [5242880, 6291456, 6291456, 10485760]) (c2 := [7340032, 6291456, 6291456, 10485760]) (h := [1048576, 2097152, 2097152, 2097152]) (fun _ => rfl) h75 (check_cut (c1 := [7340032, 5242880, 6291456, 10485760]) (c2 := [7340032, 7340032, 6291456, 10485760]) (h := [1048576, 1048576, 2097152, 2097152]) (fun _ => rfl) h76 (check_cut (c1 := [7340032, 7340032, 5242880, 10485760]) (c2 := [7340032, 7340032, 7340032, 10485760]) (h := [1048576, 1048576, 1048576, 2097152]) (fun _ => rfl) h77 (check_cut (c1 := [7340032, 7340032, 7340032, 9437184]) (c2 := [7340032, 7340032, 7340032, 11534336]) (h := [1048576, 1048576, 1048576, 1048576]) (fun _ => rfl) (check_cut (c1 := [6815744, 7340032, 7340032, 9437184]) (c2 := [7864320, 7340032, 7340032, 9437184]) (h := [524288, 1048576, 1048576, 1048576]) (fun _ => rfl) h78 h79) h80)))) h81))))) (check_cut (c1 := [4194304, 4194304, 12582912, 4194304]) (c2 := [4194304, 4194304, 12582912, 12582912]) (h := [4194304, 4194304, 4194304, 4194304]) (fun _ => rfl) (check_cut (c1 := [2097152, 4194304, 12582912, 4194304]) (c2 := [6291456, 4194304, 12582912, 4194304]) (h := [2097152, 4194304, 4194304, 4194304]) (fun _ => rfl) h82 (check_cut (c1 := [6291456, 2097152, 12582912, 4194304]) (c2 := [6291456, 6291456, 12582912, 4194304]) (h := [2097152, 2097152, 4194304, 4194304]) (fun _ => rfl) h83 (check_cut (c1 := [6291456, 6291456, 10485760, 4194304]) (c2 := [6291456, 6291456, 14680064, 4194304]) (h := [2097152, 2097152, 2097152, 4194304]) (fun _ => rfl) (check_cut (c1 := [6291456, 6291456, 10485760, 2097152]) (c2 := [6291456, 6291456, 10485760, 6291456]) (h := [2097152, 2097152, 2097152, 2097152]) (fun _ => rfl) h84 (check_cut (c1 := [5242880, 6291456, 10485760, 6291456]) (c2 := [7340032, 6291456, 10485760, 6291456]) (h := [1048576, 2097152, 2097152, 2097152]) (fun _ => rfl) h85 (check_cut (c1 := [7340032, 5242880, 10485760, 6291456]) (c2 := [7340032, 7340032, 10485760, 6291456]) (h := [1048576, 1048576, 2097152, 2097152]) (fun _ => rfl) h86 (check_cut (c1 := [7340032, 7340032, 9437184, 6291456]) (c2 := [7340032, 7340032, 11534336, 6291456]) (h := [1048576, 1048576, 1048576, 2097152]) (fun _ => rfl) (check_cut (c1 := [7340032, 7340032, 9437184, 5242880]) (c2 := [7340032, 7340032, 9437184, 7340032]) (h := [1048576, 1048576, 1048576, 1048576]) (fun _ => rfl) h87 h88) h89)))) h90))) (check_cut (c1 := [2097152, 4194304, 12582912, 12582912]) (c2 := [6291456, 4194304, 12582912, 12582912]) (h := [2097152, 4194304, 4194304, 4194304]) (fun _ => rfl) h91 (check_cut (c1 := [6291456, 2097152, 12582912, 12582912]) (c2 := [6291456, 6291456, 12582912, 12582912]) (h := [2097152, 2097152, 4194304, 4194304]) (fun _ => rfl) h92 (check_cut (c1 := [6291456, 6291456, 10485760, 12582912]) (c2 := [6291456, 6291456, 14680064, 12582912]) (h := [2097152, 2097152, 2097152, 4194304]) (fun _ => rfl) (check_cut (c1 := [6291456, 6291456, 10485760, 10485760]) (c2 := [6291456, 6291456, 10485760, 14680064]) (h := [2097152, 2097152, 2097152, 2097152]) (fun _ => rfl) (check_cut (c1 := [5242880, 6291456, 10485760, 10485760]) (c2 := [7340032, 6291456, 10485760, 10485760]) (h := [1048576, 2097152, 2097152, 2097152]) (fun _ => rfl) h93 h94) h95) h96))))) (check_cut (c1 := [4194304, 12582912, 4194304, 8388608]) (c2 := [4194304, 12582912, 12582912, 8388608]) (h := [4194304, 4194304, 4194304, 8388608]) (fun _ => rfl) (check_cut (c1 := [4194304, 12582912, 4194304, 4194304]) (c2 := [4194304, 12582912, 4194304, 12582912]) (h := [4194304, 4194304, 4194304, 4194304]) (fun _ => rfl) (check_cut (c1 := [2097152, 12582912, 4194304, 4194304]) (c2 := [6291456, 12582912, 4194304, 4194304]) (h := [2097152, 4194304, 4194304, 4194304]) (fun _ => rfl) h97 (check_cut (c1 := [6291456, 10485760, 4194304, 4194304]) (c2 := [6291456, 14680064, 4194304, 4194304]) (h := [2097152, 2097152, 4194304, 4194304]) (fun _ => rfl) (check_cut (c1 := [6291456, 10485760, 2097152, 4194304]) (c2 := [6291456, 10485760, 6291456, 4194304]) (h := [2097152, 2097152, 2097152, 4194304]) (fun _ => rfl) h98 (check_cut (c1 := [6291456, 10485760, 6291456, 2097152]) (c2 := [6291456, 10485760, 6291456, 6291456]) (h := [2097152, 2097152, 2097152, 2097152]) (fun _ => rfl) h99 (check_cut (c1 := [5242880, 10485760, 6291456, 6291456]) (c2 := [7340032, 10485760, 6291456, 6291456]) (h := [1048576, 2097152, 2097152, 2097152]) (fun _ => rfl) h100 (check_cut (c1 := [7340032, 9437184, 6291456, 6291456]) (c2 := [7340032, 11534336, 6291456, 6291456]) (h := [1048576, 1048576, 2097152, 2097152]) (fun _ => rfl) (check_cut (c1 := [7340032, 9437184, 5242880, 6291456]) (c2 := [7340032, 9437184, 7340032, 6291456]) (h := [1048576, 1048576, 1048576, 2097152]) (fun _ => rfl) h101 h102) h103)))) h104)) h105) (check_cut (c1 := [4194304, 12582912, 12582912, 4194304]) (c2 := [4194304, 12582912, 12582912, 12582912]) (h := [4194304, 4194304, 4194304, 4194304]) (fun _ => rfl) (check_cut (c1 := [2097152, 12582912, 12582912, 4194304]) (c2 := [6291456, 12582912, 12582912, 4194304]) (h := [2097152, 4194304, 4194304, 4194304]) (fun _ => rfl) h106 (check_cut (c1 := [6291456, 10485760, 12582912, 4194304]) (c2 := [6291456, 14680064, 12582912, 4194304]) (h := [2097152, 2097152, 4194304, 4194304]) (fun _ => rfl) (check_cut (c1 := [6291456, 10485760, 10485760, 4194304]) (c2 := [6291456, 10485760, 14680064, 4194304]) (h := [2097152, 2097152, 2097152, 4194304]) (fun _ => rfl) (check_cut (c1 := [6291456, 10485760, 10485760, 2097152]) (c2 := [6291456, 10485760, 10485760, 6291456]) (h := [2097152, 2097152, 2097152, 2097152]) (fun _ => rfl) h107 (check_cut (c1 := [5242880, 10485760, 10485760, 6291456]) (c2 := [7340032, 10485760, 10485760, 6291456]) (h := [1048576, 2097152, 2097152, 2097152]) (fun _ => rfl) h108 (check_cut (c1 := [7340032, 9437184, 10485760, 6291456]) (c2 := [7340032, 11534336, 10485760, 6291456]) (h := [1048576, 1048576, 2097152, 2097152]) (fun _ => rfl) h109 h110))) h111) h112)) (check_cut (c1 := [2097152, 12582912, 12582912, 12582912]) (c2 := [6291456, 12582912, 12582912, 12582912]) (h := [2097152, 4194304, 4194304, 4194304]) (fun _ => rfl) h113 h114)))) (check_cut (c1 := [12582912, 4194304, 8388608, 8388608]) (c2 := [12582912, 12582912, 8388608, 8388608]) (h := [4194304, 4194304, 8388608, 8388608]) (fun _ => rfl) (check_cut (c1 := [12582912, 4194304, 4194304, 8388608]) (c2 := [12582912, 4194304, 12582912, 8388608]) (h := [4194304, 4194304, 4194304, 8388608]) (fun _ => rfl) (check_cut (c1 := [12582912, 4194304, 4194304, 4194304]) (c2 := [12582912, 4194304, 4194304, 12582912]) (h := [4194304, 4194304, 4194304, 4194304]) (fun _ => rfl) (check_cut (c1 := [10485760, 4194304, 4194304, 4194304]) (c2 := [14680064, 4194304, 4194304, 4194304]) (h := [2097152, 4194304, 4194304, 4194304]) (fun _ => rfl) (check_cut (c1 := [10485760, 2097152, 4194304, 4194304]) (c2 := [10485760, 6291456, 4194304, 4194304]) (h := [2097152, 2097152, 4194304, 4194304]) (fun _ => rfl) (check_cut (c1 := [10485760, 2097152, 2097152, 4194304]) (c2 := [10485760, 2097152, 6291456, 4194304]) (h := [2097152, 2097152, 2097152, 4194304]) (fun _ => rfl) (check_cut (c1 := [10485760, 2097152, 2097152, 2097152]) (c2 := [10485760, 2097152, 2097152, 6291456]) (h := [2097152, 2097152, 2097152, 2097152]) (fun _ => rfl) (check_cut (c1 := [9437184, 2097152, 2097152, 2097152]) (c2 := [11534336, 2097152, 2097152, 2097152]) (h := [1048576, 2097152, 2097152, 2097152]) (fun _ => rfl) (check_cut (c1 := [9437184, 1048576, 2097152, 2097152]) (c2 := [9437184, 3145728, 2097152, 2097152]) (h := [1048576, 1048576, 2097152, 2097152]) (fun _ => rfl) (check_cut (c1 := [9437184, 1048576, 1048576, 2097152]) (c2 := [9437184, 1048576, 3145728, 2097152]) (h := [1048576, 1048576, 1048576, 2097152]) (fun _ => rfl) (check_cut (c1 := [9437184, 1048576, 1048576, 1048576]) (c2 := [9437184, 1048576, 1048576, 3145728]) (h := [1048576, 1048576, 1048576, 1048576]) (fun _ => rfl) (check_cut (c1 := [8912896, 1048576, 1048576, 1048576]) (c2 := [9961472, 1048576, 1048576, 1048576]) (h := [524288, 1048576, 1048576, 1048576]) (fun _ => rfl) (check_cut (c1 := [8912896, 524288, 1048576, 1048576]) (c2 := [8912896, 1572864, 1048576, 1048576]) (h := [524288, 524288, 1048576, 1048576]) (fun _ => rfl) (check_cut (c1 := [8912896, 524288, 524288, 1048576]) (c2 := [8912896, 524288, 1572864, 1048576]) (h := [524288, 524288, 524288, 1048576]) (fun _ => rfl) h115 h116) h117) (check_cut (c1 := [9961472, 524288, 1048576, 1048576]) (c2 := [9961472, 1572864, 1048576, 1048576]) (h := [524288, 524288, 1048576, 1048576]) (fun _ => rfl) h118 h119)) h120) h121) (check_cut (c1 := [9437184, 3145728, 1048576, 2097152]) (c2 := [9437184, 3145728, 3145728, 2097152]) (h := [1048576, 1048576, 1048576, 2097152]) (fun _ => rfl) (check_cut (c1 := [9437184, 3145728, 1048576, 1048576]) (c2 := [9437184, 3145728, 1048576, 3145728]) (h := [1048576, 1048576, 1048576, 1048576]) (fun _ => rfl) h122 h123) (check_cut (c1 := [9437184, 3145728, 3145728, 1048576]) (c2 := [9437184, 3145728, 3145728, 3145728]) (h := [1048576, 1048576, 1048576, 1048576]) (fun _ => rfl) h124 h125))) (check_cut (c1 := [11534336, 1048576, 2097152, 2097152]) (c2 := [11534336, 3145728, 2097152, 2097152]) (h := [1048576, 1048576, 2097152, 2097152]) (fun _ => rfl) (check_cut (c1 := [11534336, 1048576, 1048576, 2097152]) (c2 := [11534336, 1048576, 3145728, 2097152]) (h := [1048576, 1048576, 1048576, 2097152]) (fun _ => rfl) (check_cut (c1 := [11534336, 1048576, 1048576, 1048576]) (c2 := [11534336, 1048576, 1048576, 3145728]) (h := [1048576, 1048576, 1048576, 1048576]) (fun _ => rfl) (check_cut (c1 := [11010048, 1048576, 1048576, 1048576]) (c2 := [12058624, 1048576, 1048576, 1048576]) (h := [524288, 1048576, 1048576, 1048576]) (fun _ => rfl) (check_cut (c1 := [11010048, 524288, 1048576, 1048576]) (c2 := [11010048, 1572864, 1048576, 1048576]) (h := [524288, 524288, 1048576, 1048576]) (fun _ => rfl) h126 h127) h128) h129) h130) (check_cut (c1 := [11534336, 3145728, 1048576, 2097152]) (c2 := [11534336, 3145728, 3145728, 2097152]) (h := [1048576, 1048576, 1048576, 2097152]) (fun _ => rfl) (check_cut (c1 := [11534336, 3145728, 1048576, 1048576]) (c2 := [11534336, 3145728, 1048576, 3145728]) (h := [1048576, 1048576, 1048576, 1048576]) (fun _ => rfl) h131 h132) h133))) h134) (check_cut (c1 := [10485760, 2097152, 6291456, 2097152]) (c2 := [10485760, 2097152, 6291456, 6291456]) (h := [2097152, 2097152, 2097152, 2097152]) (fun _ => rfl) (check_cut (c1 := [9437184, 2097152, 6291456, 2097152]) (c2 := [11534336, 2097152, 6291456, 2097152]) (h := [1048576, 2097152, 2097152, 2097152]) (fun _ => rfl) h135 h136) h137)) (check_cut (c1 := [10485760, 6291456, 2097152, 4194304]) (c2 := [10485760, 6291456, 6291456, 4194304]) (h := [2097152, 2097152, 2097152, 4194304]) (fun _ => rfl) (check_cut (c1 := [10485760, 6291456, 2097152, 2097152]) (c2 := [10485760, 6291456, 2097152, 6291456]) (h := [2097152, 2097152, 2097152, 2097152]) (fun _ => rfl) (check_cut (c1 := [9437184, 6291456, 2097152, 2097152]) (c2 := [11534336, 6291456, 2097152, 2097152]) (h := [1048576, 2097152, 2097152, 2097152]) (fun _ => rfl) (check_cut (c1 := [9437184, 5242880, 2097152, 2097152]) (c2 := [9437184, 7340032, 2097152, 2097152]) (h := [1048576, 1048576, 2097152, 2097152]) (fun _ => rfl) h138 h139) (check_cut (c1 := [11534336, 5242880, 2097152, 2097152]) (c2 := [11534336, 7340032, 2097152, 2097152]) (h := [1048576, 1048576, 2097152, 2097152]) (fun _ => rfl) h140 h141)) (check_cut (c1 := [9437184, 6291456, 2097152, 6291456]) (c2 := [11534336, 6291456, 2097152, 6291456]) (h := [1048576, 2097152, 2097152, 2097152]) (fun _ => rfl) h142 h143)) (check_cut (c1 := [10485760, 6291456, 6291456, 2097152]) (c2 := [10485760, 6291456, 6291456, 6291456]) (h := [2097152, 2097152, 2097152, 2097152]) (fun _ => rfl) (check_cut (c1 := [9437184, 6291456, 6291456, 2097152]) (c2 := [11534336, 6291456, 6291456, 2097152]) (h := [1048576, 2097152, 2097152, 2097152]) (fun _ => rfl) (check_cut (c1 := [9437184, 5242880, 6291456, 2097152]) (c2 := [9437184, 7340032, 6291456, 2097152]) (h := [1048576, 1048576, 2097152, 2097152]) (fun _ => rfl) h144 h145) (check_cut (c1 := [11534336, 5242880, 6291456, 2097152]) (c2 := [11534336, 7340032, 6291456, 2097152]) (h := [1048576, 1048576, 2097152, 2097152]) (fun _ => rfl) h146 h147)) (check_cut (c1 := [9437184, 6291456, 6291456, 6291456]) (c2 := [11534336, 6291456, 6291456, 6291456]) (h := [1048576, 2097152, 2097152, 2097152]) (fun _ => rfl) (check_cut (c1 := [9437184, 5242880, 6291456, 6291456]) (c2 := [9437184, 7340032, 6291456, 6291456]) (h := [1048576, 1048576, 2097152, 2097152]) (fun _ => rfl) (check_cut (c1 := [9437184, 5242880, 5242880, 6291456]) (c2 := [9437184, 5242880, 7340032, 6291456]) (h := [1048576, 1048576, 1048576, 2097152]) (fun _ => rfl) h148 h149) (check_cut (c1 := [9437184, 7340032, 5242880, 6291456]) (c2 := [9437184, 7340032, 7340032, 6291456]) (h := [1048576, 1048576, 1048576, 2097152]) (fun _ => rfl) h150 (check_cut (c1 := [9437184, 7340032, 7340032, 5242880]) (c2 := [9437184, 7340032, 7340032, 7340032]) (h := [1048576, 1048576, 1048576, 1048576]) (fun _ => rfl) h151 (check_cut (c1 := [8912896, 7340032, 7340032, 7340032]) (c2 := [9961472, 7340032, 7340032, 7340032]) (h := [524288, 1048576, 1048576, 1048576]) (fun _ => rfl) h152 h153)))) (check_cut (c1 := [11534336, 5242880, 6291456, 6291456]) (c2 := [11534336, 7340032, 6291456, 6291456]) (h := [1048576, 1048576, 2097152, 2097152]) (fun _ => rfl) h154 (check_cut (c1 := [11534336, 7340032, 5242880, 6291456]) (c2 := [11534336, 7340032, 7340032, 6291456]) (h := [1048576, 1048576, 1048576, 2097152]) (fun _ => rfl) h155 h156)))))) (check_cut (c1 := [14680064, 2097152, 4194304, 4194304]) (c2 := [14680064, 6291456, 4194304, 4194304]) (h := [2097152, 2097152, 4194304, 4194304]) (fun _ => rfl) (check_cut (c1 := [14680064, 2097152, 2097152, 4194304]) (c2 := [14680064, 2097152, 6291456, 4194304]) (h := [2097152, 2097152, 2097152, 4194304]) (fun _ => rfl) (check_cut (c1 := [14680064, 2097152, 2097152, 2097152]) (c2 := [14680064, 2097152, 2097152, 6291456]) (h := [2097152, 2097152, 2097152, 2097152]) (fun _ => rfl) (check_cut (c1 := [13631488, 2097152, 2097152, 2097152]) (c2 := [15728640, 2097152, 2097152, 2097152]) (h := [1048576, 2097152, 2097152, 2097152]) (fun _ => rfl) (check_cut (c1 := [13631488, 1048576, 2097152, 2097152]) (c2 := [13631488, 3145728, 2097152, 2097152]) (h := [1048576, 1048576, 2097152, 2097152]) (fun _ => rfl) (check_cut (c1 := [13631488, 1048576, 1048576, 2097152]) (c2 := [13631488, 1048576, 3145728, 2097152]) (h := [1048576, 1048576, 1048576, 2097152]) (fun _ => rfl) h157 h158) (check_cut (c1 := [13631488, 3145728, 1048576, 2097152]) (c2 := [13631488, 3145728, 3145728, 2097152]) (h := [1048576, 1048576, 1048576, 2097152]) (fun _ => rfl) h159 (check_cut (c1 := [13631488, 3145728, 3145728, 1048576]) (c2 := [13631488, 3145728, 3145728, 3145728]) (h := [1048576, 1048576, 1048576, 1048576]) (fun _ => rfl) h160 h161))) (check_cut (c1 := [15728640, 1048576, 2097152, 2097152]) (c2 := [15728640, 3145728, 2097152, 2097152]) (h := [1048576, 1048576, 2097152, 2097152]) (fun _ => rfl) (check_cut (c1 := [15728640, 1048576, 1048576, 2097152]) (c2 := [15728640, 1048576, 3145728, 2097152]) (h := [1048576, 1048576, 1048576, 2097152]) (fun _ => rfl) h162 h163) h164)) (check_cut (c1 := [13631488, 2097152, 2097152, 6291456]) (c2 := [15728640, 2097152, 2097152, 6291456]) (h := [1048576, 2097152, 2097152, 2097152]) (fun _ => rfl) h165 h166)) (check_cut (c1 := [14680064, 2097152, 6291456, 2097152]) (c2 := [14680064, 2097152, 6291456, 6291456]) (h := [2097152, 2097152, 2097152, 2097152]) (fun _ => rfl) (check_cut (c1 := [13631488, 2097152, 6291456, 2097152]) (c2 := [15728640, 2097152, 6291456, 2097152]) (h := [1048576, 2097152, 2097152, 2097152]) (fun _ => rfl) h167 h168) h169)) (check_cut (c1 := [14680064, 6291456, 2097152, 4194304]) (c2 := [14680064, 6291456, 6291456, 4194304]) (h := [2097152, 2097152, 2097152, 4194304]) (fun _ => rfl) (check_cut (c1 := [14680064, 6291456, 2097152, 2097152]) (c2 := [14680064, 6291456, 2097152, 6291456]) (h := [2097152, 2097152, 2097152, 2097152]) (fun _ => rfl) (check_cut (c1 := [13631488, 6291456, 2097152, 2097152]) (c2 := [15728640, 6291456, 2097152, 2097152]) (h := [1048576, 2097152, 2097152, 2097152]) (fun _ => rfl) (check_cut (c1 := [13631488, 5242880, 2097152, 2097152]) (c2 := [13631488, 7340032, 2097152, 2097152]) (h := [1048576, 1048576, 2097152, 2097152]) (fun _ => rfl) (check_cut (c1 := [13631488, 5242880, 1048576, 2097152]) (c2 := [13631488, 5242880, 3145728, 2097152]) (h := [1048576, 1048576, 1048576, 2097152]) (fun _ => rfl) h170 h171) (check_cut (c1 := [13631488, 7340032, 1048576, 2097152]) (c2 := [13631488, 7340032, 3145728, 2097152]) (h := [1048576, 1048576, 1048576, 2097152]) (fun _ => rfl) h172 h173)) (check_cut (c1 := [15728640, 5242880, 2097152, 2097152]) (c2 := [15728640, 7340032, 2097152, 2097152]) (h := [1048576, 1048576, 2097152, 2097152]) (fun _ => rfl) (check_cut (c1 := [15728640, 5242880, 1048576, 2097152]) (c2 := [15728640, 5242880, 3145728, 2097152]) (h := [1048576, 1048576, 1048576, 2097152]) (fun _ => rfl) (check_cut (c1 := [15728640, 5242880, 1048576, 1048576]) (c2 := [15728640, 5242880, 1048576, 3145728]) (h := [1048576, 1048576, 1048576, 1048576]) (fun _ => rfl) (check_cut (c1 := [15204352, 5242880, 1048576, 1048576]) (c2 := [16252928, 5242880, 1048576, 1048576]) (h := [524288, 1048576, 1048576, 1048576]) (fun _ => rfl) h174 h175) h176) (check_cut (c1 := [15728640, 5242880, 3145728, 1048576]) (c2 := [15728640, 5242880, 3145728, 3145728]) (h := [1048576, 1048576, 1048576, 1048576]) (fun _ => rfl) h177 h178)) (check_cut (c1 := [15728640, 7340032, 1048576, 2097152]) (c2 := [15728640, 7340032, 3145728, 2097152]) (h := [1048576, 1048576, 1048576, 2097152]) (fun _ => rfl) (check_cut (c1 := [15728640, 7340032, 1048576, 1048576]) (c2 := [15728640, 7340032, 1048576, 3145728]) (h := [1048576, 1048576, 1048576, 1048576]) (fun _ => rfl) (check_cut (c1 := [15204352, 7340032, 1048576, 1048576]) (c2 := [16252928, 7340032, 1048576, 1048576]) (h := [524288, 1048576, 1048576, 1048576]) (fun _ => rfl) h179 (check_cut (c1 := [16252928, 6815744, 1048576, 1048576]) (c2 := [16252928, 7864320, 1048576, 1048576]) (h := [524288, 524288, 1048576, 1048576]) (fun _ => rfl) h180 (check_cut (c1 := [16252928, 7864320, 524288, 1048576]) (c2 := [16252928, 7864320, 1572864, 1048576]) (h := [524288, 524288, 524288, 1048576]) (fun _ => rfl) h181 h182))) h183) (check_cut (c1 := [15728640, 7340032, 3145728, 1048576]) (c2 := [15728640, 7340032, 3145728, 3145728]) (h := [1048576, 1048576, 1048576, 1048576]) (fun _ => rfl) h184 h185)))) (check_cut (c1 := [13631488, 6291456, 2097152, 6291456]) (c2 := [15728640, 6291456, 2097152, 6291456]) (h := [1048576, 2097152, 2097152, 2097152]) (fun _ => rfl) h186 h187)) (check_cut (c1 := [14680064, 6291456, 6291456, 2097152]) (c2 := [14680064, 6291456, 6291456, 6291456]) (h := [2097152, 2097152, 2097152, 2097152]) (fun _ => rfl) (check_cut (c1 := [13631488, 6291456, 6291456, 2097152]) (c2 := [15728640, 6291456, 6291456, 2097152]) (h := [1048576, 2097152, 2097152, 2097152]) (fun _ => rfl) (check_cut (c1 := [13631488, 5242880, 6291456, 2097152]) (c2 := [13631488, 7340032, 6291456, 2097152]) (h := [1048576, 1048576, 2097152, 2097152]) (fun _ => rfl) h188 h189) (check_cut (c1 := [15728640, 5242880, 6291456, 2097152]) (c2 := [15728640, 7340032, 6291456, 2097152]) (h := [1048576, 1048576, 2097152, 2097152]) (fun _ => rfl) (check_cut (c1 := [15728640, 5242880, 5242880, 2097152]) (c2 := [15728640, 5242880, 7340032, 2097152]) (h := [1048576, 1048576, 1048576, 2097152]) (fun _ => rfl) h190 h191) h192)) (check_cut (c1 := [13631488, 6291456, 6291456, 6291456]) (c2 := [15728640, 6291456, 6291456, 6291456]) (h := [1048576, 2097152, 2097152, 2097152]) (fun _ => rfl) (check_cut (c1 := [13631488, 5242880, 6291456, 6291456]) (c2 := [13631488, 7340032, 6291456, 6291456]) (h := [1048576, 1048576, 2097152, 2097152]) (fun _ => rfl) h193 h194) (check_cut (c1 := [15728640, 5242880, 6291456, 6291456]) (c2 := [15728640, 7340032, 6291456, 6291456]) (h := [1048576, 1048576, 2097152, 2097152]) (fun _ => rfl) h195 h196)))))) (check_cut (c1 := [10485760, 4194304, 4194304, 12582912]) (c2 := [14680064, 4194304, 4194304, 12582912]) (h := [2097152, 4194304, 4194304, 4194304]) (fun _ => rfl) (check_cut (c1 := [10485760, 2097152, 4194304, 12582912]) (c2 := [10485760, 6291456, 4194304, 12582912]) (h := [2097152, 2097152, 4194304, 4194304]) (fun _ => rfl) h197 (check_cut (c1 := [10485760, 6291456, 2097152, 12582912]) (c2 := [10485760, 6291456, 6291456, 12582912]) (h := [2097152, 2097152, 2097152, 4194304]) (fun _ => rfl) h198 (check_cut (c1 := [10485760, 6291456, 6291456, 10485760]) (c2 := [10485760, 6291456, 6291456, 14680064]) (h := [2097152, 2097152, 2097152, 2097152]) (fun _ => rfl) (check_cut (c1 := [9437184, 6291456, 6291456, 10485760]) (c2 := [11534336, 6291456, 6291456, 10485760]) (h := [1048576, 2097152, 2097152, 2097152]) (fun _ => rfl) (check_cut (c1 := [9437184, 5242880, 6291456, 10485760]) (c2 := [9437184, 7340032, 6291456, 10485760]) (h := [1048576, 1048576, 2097152, 2097152]) (fun _ => rfl) h199 h200) h201) h202))) h203)) (check_cut (c1 := [12582912, 4194304, 12582912, 4194304]) (c2 := [12582912, 4194304, 12582912, 12582912]) (h := [4194304, 4194304, 4194304, 4194304]) (fun _ => rfl) (check_cut (c1 := [10485760, 4194304, 12582912, 4194304]) (c2 := [14680064, 4194304, 12582912, 4194304]) (h := [2097152, 4194304, 4194304, 4194304]) (fun _ => rfl) (check_cut (c1 := [10485760, 2097152, 12582912, 4194304]) (c2 := [10485760, 6291456, 12582912, 4194304]) (h := [2097152, 2097152, 4194304, 4194304]) (fun _ => rfl) h204 (check_cut (c1 := [10485760, 6291456, 10485760, 4194304]) (c2 := [10485760, 6291456, 14680064, 4194304]) (h := [2097152, 2097152, 2097152, 4194304]) (fun _ => rfl) (check_cut (c1 := [10485760, 6291456, 10485760, 2097152]) (c2 := [10485760, 6291456, 10485760, 6291456]) (h := [2097152, 2097152, 2097152, 2097152]) (fun _ => rfl) h205 (check_cut (c1 := [9437184, 6291456, 10485760, 6291456]) (c2 := [11534336, 6291456, 10485760, 6291456]) (h := [1048576, 2097152, 2097152, 2097152]) (fun _ => rfl) (check_cut (c1 := [9437184, 5242880, 10485760, 6291456]) (c2 := [9437184, 7340032, 10485760, 6291456]) (h := [1048576, 1048576, 2097152, 2097152]) (fun _ => rfl) h206 (check_cut (c1 := [9437184, 7340032, 9437184, 6291456]) (c2 := [9437184, 7340032, 11534336, 6291456]) (h := [1048576, 1048576, 1048576, 2097152]) (fun _ => rfl) (check_cut (c1 := [9437184, 7340032, 9437184, 5242880]) (c2 := [9437184, 7340032, 9437184, 7340032]) (h := [1048576, 1048576, 1048576, 1048576]) (fun _ => rfl) h207 h208) h209)) h210)) h211)) (check_cut (c1 := [14680064, 2097152, 12582912, 4194304]) (c2 := [14680064, 6291456, 12582912, 4194304]) (h := [2097152, 2097152, 4194304, 4194304]) (fun _ => rfl) h212 (check_cut (c1 := [14680064, 6291456, 10485760, 4194304]) (c2 := [14680064, 6291456, 14680064, 4194304]) (h := [2097152, 2097152, 2097152, 4194304]) (fun _ => rfl) (check_cut (c1 := [14680064, 6291456, 10485760, 2097152]) (c2 := [14680064, 6291456, 10485760, 6291456]) (h := [2097152, 2097152, 2097152, 2097152]) (fun _ => rfl) h213 h214) h215))) (check_cut (c1 := [10485760, 4194304, 12582912, 12582912]) (c2 := [14680064, 4194304, 12582912, 12582912]) (h := [2097152, 4194304, 4194304, 4194304]) (fun _ => rfl) (check_cut (c1 := [10485760, 2097152, 12582912, 12582912]) (c2 := [10485760, 6291456, 12582912, 12582912]) (h := [2097152, 2097152, 4194304, 4194304]) (fun _ => rfl) h216 (check_cut (c1 := [10485760, 6291456, 10485760, 12582912]) (c2 := [10485760, 6291456, 14680064, 12582912]) (h := [2097152, 2097152, 2097152, 4194304]) (fun _ => rfl) (check_cut (c1 := [10485760, 6291456, 10485760, 10485760]) (c2 := [10485760, 6291456, 10485760, 14680064]) (h := [2097152, 2097152, 2097152, 2097152]) (fun _ => rfl) (check_cut (c1 := [9437184, 6291456, 10485760, 10485760]) (c2 := [11534336, 6291456, 10485760, 10485760]) (h := [1048576, 2097152, 2097152, 2097152]) (fun _ => rfl) h217 h218) h219) h220)) h221))) (check_cut (c1 := [12582912, 12582912, 4194304, 8388608]) (c2 := [12582912, 12582912, 12582912, 8388608]) (h := [4194304, 4194304, 4194304, 8388608]) (fun _ => rfl) (check_cut (c1 := [12582912, 12582912, 4194304, 4194304]) (c2 := [12582912, 12582912, 4194304, 12582912]) (h := [4194304, 4194304, 4194304, 4194304]) (fun _ => rfl) (check_cut (c1 := [10485760, 12582912, 4194304, 4194304]) (c2 := [14680064, 12582912, 4194304, 4194304]) (h := [2097152, 4194304, 4194304, 4194304]) (fun _ => rfl) (check_cut (c1 := [10485760, 10485760, 4194304, 4194304]) (c2 := [10485760, 14680064, 4194304, 4194304]) (h := [2097152, 2097152, 4194304, 4194304]) (fun _ => rfl) (check_cut (c1 := [10485760, 10485760, 2097152, 4194304]) (c2 := [10485760, 10485760, 6291456, 4194304]) (h := [2097152, 2097152, 2097152, 4194304]) (fun _ => rfl) (check_cut (c1 := [10485760, 10485760, 2097152, 2097152]) (c2 := [10485760, 10485760, 2097152, 6291456]) (h := [2097152, 2097152, 2097152, 2097152]) (fun _ => rfl) (check_cut (c1 := [9437184, 10485760, 2097152, 2097152]) (c2 := [11534336, 10485760, 2097152, 2097152]) (h := [1048576, 2097152, 2097152, 2097152]) (fun _ => rfl) h222 (check_cut (c1 := [11534336, 9437184, 2097152, 2097152]) (c2 := [11534336, 11534336, 2097152, 2097152]) (h := [1048576, 1048576, 2097152, 2097152]) (fun _ => rfl) h223 (check_cut (c1 := [11534336, 11534336, 1048576, 2097152]) (c2 := [11534336, 11534336, 3145728, 2097152]) (h := [1048576, 1048576, 1048576, 2097152]) (fun _ => rfl) h224 h225))) h226) (check_cut (c1 := [10485760, 10485760, 6291456, 2097152]) (c2 := [10485760, 10485760, 6291456, 6291456]) (h := [2097152, 2097152, 2097152, 2097152]) (fun _ => rfl) (check_cut (c1 := [9437184, 10485760, 6291456, 2097152]) (c2 := [11534336, 10485760, 6291456, 2097152]) (h := [1048576, 2097152, 2097152, 2097152]) (fun _ => rfl) h227 h228) (check_cut (c1 := [9437184, 10485760, 6291456, 6291456]) (c2 := [11534336, 10485760, 6291456, 6291456]) (h := [1048576, 2097152, 2097152, 2097152]) (fun _ => rfl) (check_cut (c1 := [9437184, 9437184, 6291456, 6291456]) (c2 := [9437184, 11534336, 6291456, 6291456]) (h := [1048576, 1048576, 2097152, 2097152]) (fun _ => rfl) (check_cut (c1 := [9437184, 9437184, 5242880, 6291456]) (c2 := [9437184, 9437184, 7340032, 6291456]) (h := [1048576, 1048576, 1048576, 2097152]) (fun _ => rfl) h229 (check_cut (c1 := [9437184, 9437184, 7340032, 5242880]) (c2 := [9437184, 9437184, 7340032, 7340032]) (h := [1048576, 1048576, 1048576, 1048576]) (fun _ => rfl) h230 (check_cut (c1 := [8912896, 9437184, 7340032, 7340032]) (c2 := [9961472, 9437184, 7340032, 7340032]) (h := [524288, 1048576, 1048576, 1048576]) (fun _ => rfl) (check_cut (c1 := [8912896, 8912896, 7340032, 7340032]) (c2 := [8912896, 9961472, 7340032, 7340032]) (h := [524288, 524288, 1048576, 1048576]) (fun _ => rfl) h231 h232) h233))) h234) (check_cut (c1 := [11534336, 9437184, 6291456, 6291456]) (c2 := [11534336, 11534336, 6291456, 6291456]) (h := [1048576, 1048576, 2097152, 2097152]) (fun _ => rfl) (check_cut (c1 := [11534336, 9437184, 5242880, 6291456]) (c2 := [11534336, 9437184, 7340032, 6291456]) (h := [1048576, 1048576, 1048576, 2097152]) (fun _ => rfl) h235 h236) h237)))) (check_cut (c1 := [10485760, 14680064, 2097152, 4194304]) (c2 := [10485760, 14680064, 6291456, 4194304]) (h := [2097152, 2097152, 2097152, 4194304]) (fun _ => rfl) (check_cut (c1 := [10485760, 14680064, 2097152, 2097152]) (c2 := [10485760, 14680064, 2097152, 6291456]) (h := [2097152, 2097152, 2097152, 2097152]) (fun _ => rfl) h238 h239) h240)) (check_cut (c1 := [14680064, 10485760, 4194304, 4194304]) (c2 := [14680064, 14680064, 4194304, 4194304]) (h := [2097152, 2097152, 4194304, 4194304]) (fun _ => rfl) (check_cut (c1 := [14680064, 10485760, 2097152, 4194304]) (c2 := [14680064, 10485760, 6291456, 4194304]) (h := [2097152, 2097152, 2097152, 4194304]) (fun _ => rfl) (check_cut (c1 := [14680064, 10485760, 2097152, 2097152]) (c2 := [14680064, 10485760, 2097152, 6291456]) (h := [2097152, 2097152, 2097152, 2097152]) (fun _ => rfl) (check_cut (c1 := [13631488, 10485760, 2097152, 2097152]) (c2 := [15728640, 10485760, 2097152, 2097152]) (h := [1048576, 2097152, 2097152, 2097152]) (fun _ => rfl) (check_cut (c1 := [13631488, 9437184, 2097152, 2097152]) (c2 := [13631488, 11534336, 2097152, 2097152]) (h := [1048576, 1048576, 2097152, 2097152]) (fun _ => rfl) (check_cut (c1 := [13631488, 9437184, 1048576, 2097152]) (c2 := [13631488, 9437184, 3145728, 2097152]) (h := [1048576, 1048576, 1048576, 2097152]) (fun _ => rfl) h241 h242) (check_cut (c1 := [13631488, 11534336, 1048576, 2097152]) (c2 := [13631488, 11534336, 3145728, 2097152]) (h := [1048576, 1048576, 1048576, 2097152]) (fun _ => rfl) (check_cut (c1 := [13631488, 11534336, 1048576, 1048576]) (c2 := [13631488, 11534336, 1048576, 3145728]) (h := [1048576, 1048576, 1048576, 1048576]) (fun _ => rfl) h243 h244) h245)) (check_cut (c1 := [15728640, 9437184, 2097152, 2097152]) (c2 := [15728640, 11534336, 2097152, 2097152]) (h := [1048576, 1048576, 2097152, 2097152]) (fun _ => rfl) (check_cut (c1 := [15728640, 9437184, 1048576, 2097152]) (c2 := [15728640, 9437184, 3145728, 2097152]) (h := [1048576, 1048576, 1048576, 2097152]) (fun _ => rfl) (check_cut (c1 := [15728640, 9437184, 1048576, 1048576]) (c2 := [15728640, 9437184, 1048576, 3145728]) (h := [1048576, 1048576, 1048576, 1048576]) (fun _ => rfl) (check_cut (c1 := [15204352, 9437184, 1048576, 1048576]) (c2 := [16252928, 9437184, 1048576, 1048576]) (h := [524288, 1048576, 1048576, 1048576]) (fun _ => rfl) h246 (check_cut (c1 := [16252928, 8912896, 1048576, 1048576]) (c2 := [16252928, 9961472, 1048576, 1048576]) (h := [524288, 524288, 1048576, 1048576]) (fun _ => rfl) (check_cut (c1 := [16252928, 8912896, 524288, 1048576]) (c2 := [16252928, 8912896, 1572864, 1048576]) (h := [524288, 524288, 524288, 1048576]) (fun _ => rfl) h247 h248) (check_cut (c1 := [16252928, 9961472, 524288, 1048576]) (c2 := [16252928, 9961472, 1572864, 1048576]) (h := [524288, 524288, 524288, 1048576]) (fun _ => rfl) h249 h250))) h251) h252) (check_cut (c1 := [15728640, 11534336, 1048576, 2097152]) (c2 := [15728640, 11534336, 3145728, 2097152]) (h := [1048576, 1048576, 1048576, 2097152]) (fun _ => rfl) (check_cut (c1 := [15728640, 11534336, 1048576, 1048576]) (c2 := [15728640, 11534336, 1048576, 3145728]) (h := [1048576, 1048576, 1048576, 1048576]) (fun _ => rfl) (check_cut (c1 := [15204352, 11534336, 1048576, 1048576]) (c2 := [16252928, 11534336, 1048576, 1048576]) (h := [524288, 1048576, 1048576, 1048576]) (fun _ => rfl) h253 (check_cut (c1 := [16252928, 11010048, 1048576, 1048576]) (c2 := [16252928, 12058624, 1048576, 1048576]) (h := [524288, 524288, 1048576, 1048576]) (fun _ => rfl) h254 h255)) h256) (check_cut (c1 := [15728640, 11534336, 3145728, 1048576]) (c2 := [15728640, 11534336, 3145728, 3145728]) (h := [1048576, 1048576, 1048576, 1048576]) (fun _ => rfl) h257 h258)))) (check_cut (c1 := [13631488, 10485760, 2097152, 6291456]) (c2 := [15728640, 10485760, 2097152, 6291456]) (h := [1048576, 2097152, 2097152, 2097152]) (fun _ => rfl) h259 h260)) (check_cut (c1 := [14680064, 10485760, 6291456, 2097152]) (c2 := [14680064, 10485760, 6291456, 6291456]) (h := [2097152, 2097152, 2097152, 2097152]) (fun _ => rfl) (check_cut (c1 := [13631488, 10485760, 6291456, 2097152]) (c2 := [15728640, 10485760, 6291456, 2097152]) (h := [1048576, 2097152, 2097152, 2097152]) (fun _ => rfl) h261 (check_cut (c1 := [15728640, 9437184, 6291456, 2097152]) (c2 := [15728640, 11534336, 6291456, 2097152]) (h := [1048576, 1048576, 2097152, 2097152]) (fun _ => rfl) h262 (check_cut (c1 := [15728640, 11534336, 5242880, 2097152]) (c2 := [15728640, 11534336, 7340032, 2097152]) (h := [1048576, 1048576, 1048576, 2097152]) (fun _ => rfl) h263 h264))) (check_cut (c1 := [13631488, 10485760, 6291456, 6291456]) (c2 := [15728640, 10485760, 6291456, 6291456]) (h := [1048576, 2097152, 2097152, 2097152]) (fun _ => rfl) h265 h266))) (check_cut (c1 := [14680064, 14680064, 2097152, 4194304]) (c2 := [14680064, 14680064, 6291456, 4194304]) (h := [2097152, 2097152, 2097152, 4194304]) (fun _ => rfl) (check_cut (c1 := [14680064, 14680064, 2097152, 2097152]) (c2 := [14680064, 14680064, 2097152, 6291456]) (h := [2097152, 2097152, 2097152, 2097152]) (fun _ => rfl) (check_cut (c1 := [13631488, 14680064, 2097152, 2097152]) (c2 := [15728640, 14680064, 2097152, 2097152]) (h := [1048576, 2097152, 2097152, 2097152]) (fun _ => rfl) (check_cut (c1 := [13631488, 13631488, 2097152, 2097152]) (c2 := [13631488, 15728640, 2097152, 2097152]) (h := [1048576, 1048576, 2097152, 2097152]) (fun _ => rfl) (check_cut (c1 := [13631488, 13631488, 1048576, 2097152]) (c2 := [13631488, 13631488, 3145728, 2097152]) (h := [1048576, 1048576, 1048576, 2097152]) (fun _ => rfl) (check_cut (c1 := [13631488, 13631488, 1048576, 1048576]) (c2 := [13631488, 13631488, 1048576, 3145728]) (h := [1048576, 1048576, 1048576, 1048576]) (fun _ => rfl) h267 h268) (check_cut (c1 := [13631488, 13631488, 3145728, 1048576]) (c2 := [13631488, 13631488, 3145728, 3145728]) (h := [1048576, 1048576, 1048576, 1048576]) (fun _ => rfl) h269 h270)) h271) (check_cut (c1 := [15728640, 13631488, 2097152, 2097152]) (c2 := [15728640, 15728640, 2097152, 2097152]) (h := [1048576, 1048576, 2097152, 2097152]) (fun _ => rfl) (check_cut (c1 := [15728640, 13631488, 1048576, 2097152]) (c2 := [15728640, 13631488, 3145728, 2097152]) (h := [1048576, 1048576, 1048576, 2097152]) (fun _ => rfl) h272 (check_cut (c1 := [15728640, 13631488, 3145728, 1048576]) (c2 := [15728640, 13631488, 3145728, 3145728]) (h := [1048576, 1048576, 1048576, 1048576]) (fun _ => rfl) h273 h274)) (check_cut (c1 := [15728640, 15728640, 1048576, 2097152]) (c2 := [15728640, 15728640, 3145728, 2097152]) (h := [1048576, 1048576, 1048576, 2097152]) (fun _ => rfl) h275 h276))) h277) (check_cut (c1 := [14680064, 14680064, 6291456, 2097152]) (c2 := [14680064, 14680064, 6291456, 6291456]) (h := [2097152, 2097152, 2097152, 2097152]) (fun _ => rfl) (check_cut (c1 := [13631488, 14680064, 6291456, 2097152]) (c2 := [15728640, 14680064, 6291456, 2097152]) (h := [1048576, 2097152, 2097152, 2097152]) (fun _ => rfl) (check_cut (c1 := [13631488, 13631488, 6291456, 2097152]) (c2 := [13631488, 15728640, 6291456, 2097152]) (h := [1048576, 1048576, 2097152, 2097152]) (fun _ => rfl) (check_cut (c1 := [13631488, 13631488, 5242880, 2097152]) (c2 := [13631488, 13631488, 7340032, 2097152]) (h := [1048576, 1048576, 1048576, 2097152]) (fun _ => rfl) h278 h279) h280) (check_cut (c1 := [15728640, 13631488, 6291456, 2097152]) (c2 := [15728640, 15728640, 6291456, 2097152]) (h := [1048576, 1048576, 2097152, 2097152]) (fun _ => rfl) (check_cut (c1 := [15728640, 13631488, 5242880, 2097152]) (c2 := [15728640, 13631488, 7340032, 2097152]) (h := [1048576, 1048576, 1048576, 2097152]) (fun _ => rfl) h281 h282) h283)) h284)))) (check_cut (c1 := [10485760, 12582912, 4194304, 12582912]) (c2 := [14680064, 12582912, 4194304, 12582912]) (h := [2097152, 4194304, 4194304, 4194304]) (fun _ => rfl) (check_cut (c1 := [10485760, 10485760, 4194304, 12582912]) (c2 := [10485760, 14680064, 4194304, 12582912]) (h := [2097152, 2097152, 4194304, 4194304]) (fun _ => rfl) (check_cut (c1 := [10485760, 10485760, 2097152, 12582912]) (c2 := [10485760, 10485760, 6291456, 12582912]) (h := [2097152, 2097152, 2097152, 4194304]) (fun _ => rfl) h285 (check_cut (c1 := [10485760, 10485760, 6291456, 10485760]) (c2 := [10485760, 10485760, 6291456, 14680064]) (h := [2097152, 2097152, 2097152, 2097152]) (fun _ => rfl) (check_cut (c1 := [9437184, 10485760, 6291456, 10485760]) (c2 := [11534336, 10485760, 6291456, 10485760]) (h := [1048576, 2097152, 2097152, 2097152]) (fun _ => rfl) (check_cut (c1 := [9437184, 9437184, 6291456, 10485760]) (c2 := [9437184, 11534336, 6291456, 10485760]) (h := [1048576, 1048576, 2097152, 2097152]) (fun _ => rfl) h286 h287) h288) h289)) h290) h291)) (check_cut (c1 := [12582912, 12582912, 12582912, 4194304]) (c2 := [12582912, 12582912, 12582912, 12582912]) (h := [4194304, 4194304, 4194304, 4194304]) (fun _ => rfl) (check_cut (c1 := [10485760, 12582912, 12582912, 4194304]) (c2 := [14680064, 12582912, 12582912, 4194304]) (h := [2097152, 4194304, 4194304, 4194304]) (fun _ => rfl) (check_cut (c1 := [10485760, 10485760, 12582912, 4194304]) (c2 := [10485760, 14680064, 12582912, 4194304]) (h := [2097152, 2097152, 4194304, 4194304]) (fun _ => rfl) (check_cut (c1 := [10485760, 10485760, 10485760, 4194304]) (c2 := [10485760, 10485760, 14680064, 4194304]) (h := [2097152, 2097152, 2097152, 4194304]) (fun _ => rfl) (check_cut (c1 := [10485760, 10485760, 10485760, 2097152]) (c2 := [10485760, 10485760, 10485760, 6291456]) (h := [2097152, 2097152, 2097152, 2097152]) (fun _ => rfl) (check_cut (c1 := [9437184, 10485760, 10485760, 2097152]) (c2 := [11534336, 10485760, 10485760, 2097152]) (h := [1048576, 2097152, 2097152, 2097152]) (fun _ => rfl) h292 (check_cut (c1 := [11534336, 9437184, 10485760, 2097152]) (c2 := [11534336, 11534336, 10485760, 2097152]) (h := [1048576, 1048576, 2097152, 2097152]) (fun _ => rfl) h293 h294)) (check_cut (c1 := [9437184, 10485760, 10485760, 6291456]) (c2 := [11534336, 10485760, 10485760, 6291456]) (h := [1048576, 2097152, 2097152, 2097152]) (fun _ => rfl) (check_cut (c1 := [9437184, 9437184, 10485760, 6291456]) (c2 := [9437184, 11534336, 10485760, 6291456]) (h := [1048576, 1048576, 2097152, 2097152]) (fun _ => rfl) (check_cut (c1 := [9437184, 9437184, 9437184, 6291456]) (c2 := [9437184, 9437184, 11534336, 6291456]) (h := [1048576, 1048576, 1048576, 2097152]) (fun _ => rfl) (check_cut (c1 := [9437184, 9437184, 9437184, 5242880]) (c2 := [9437184, 9437184, 9437184, 7340032]) (h := [1048576, 1048576, 1048576, 1048576]) (fun _ => rfl) h295 (check_cut (c1 := [8912896, 9437184, 9437184, 7340032]) (c2 := [9961472, 9437184, 9437184, 7340032]) (h := [524288, 1048576, 1048576, 1048576]) (fun _ => rfl) (check_cut (c1 := [8912896, 8912896, 9437184, 7340032]) (c2 := [8912896, 9961472, 9437184, 7340032]) (h := [524288, 524288, 1048576, 1048576]) (fun _ => rfl) h296 h297) h298)) h299) h300) h301)) h302) h303) (check_cut (c1 := [14680064, 10485760, 12582912, 4194304]) (c2 := [14680064, 14680064, 12582912, 4194304]) (h := [2097152, 2097152, 4194304, 4194304]) (fun _ => rfl) (check_cut (c1 := [14680064, 10485760, 10485760, 4194304]) (c2 := [14680064, 10485760, 14680064, 4194304]) (h := [2097152, 2097152, 2097152, 4194304]) (fun _ => rfl) (check_cut (c1 := [14680064, 10485760, 10485760, 2097152]) (c2 := [14680064, 10485760, 10485760, 6291456]) (h := [2097152, 2097152, 2097152, 2097152]) (fun _ => rfl) (check_cut (c1 := [13631488, 10485760, 10485760, 2097152]) (c2 := [15728640, 10485760, 10485760, 2097152]) (h := [1048576, 2097152, 2097152, 2097152]) (fun _ => rfl) (check_cut (c1 := [13631488, 9437184, 10485760, 2097152]) (c2 := [13631488, 11534336, 10485760, 2097152]) (h := [1048576, 1048576, 2097152, 2097152]) (fun _ => rfl) h304 h305) h306) h307) h308) h309)) h310))))

end FastNoise.NormCheck.Simplex4
