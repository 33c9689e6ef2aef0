import Verif.RangeCheckLemmas
import Verif.RangeCertOuterSuper4P0
import Verif.RangeCertOuterSuper4P1
import Verif.RangeCertOuterSuper4P2
import Verif.RangeCertOuterSuper4P3
import Verif.RangeCertOuterSuper4P4
import Verif.RangeCertOuterSuper4P5
import Verif.RangeCertOuterSuper4P6
import Verif.RangeCertOuterSuper4P7
import Verif.RangeCertOuterSuper4P8
import Verif.RangeCertOuterSuper4P9
import Verif.RangeCertOuterSuper4P10
/-! Generated by tools/rangecert/gen.py: a certificate for the checker `Verif.RangeCheck`. -/
namespace FastNoise.RangeCheck.OuterSuper4

def tree : Tree := (.cut 0 (.cut 1 (.cut 2 (.cut 3 (.cut 0 t0 (.cut 1 (.cut 2 (.cut 3 (.cut 0 t1 (.cut 1 (.cut 2 (.cut 3 (.cut 0 t2 t3) t4) t5) (.cut 2 (.cut 3 (.cut 0 t6 t7) t8) (.cut 3 t9 t10)))) t11) t12) (.cut 2 (.cut 3 (.cut 0 t13 (.cut 1 (.cut 2 t14 t15) t16)) t17) (.cut 3 (.cut 0 t18 (.cut 1 (.cut 2 t19 t20) (.cut 2 t21 t22))) (.cut 0 t23 (.cut 1 t24 (.cut 2 t25 (.cut 3 (.cut 0 t26 t27) (.cut 0 t28 t29))))))))) t30) t31) (.cut 2 (.cut 3 (.cut 0 t32 (.cut 1 (.cut 2 t33 t34) t35)) t36) t37)) (.cut 1 (.cut 2 (.cut 3 (.cut 0 (.cut 1 (.cut 2 (.cut 3 (.cut 0 (.cut 1 (.cut 2 (.cut 3 (.cut 0 (.cut 1 t38 (.cut 2 t39 (.cut 3 t40 t41))) (.cut 1 t42 (.cut 2 t43 (.cut 3 t44 t45)))) t46) t47) (.cut 2 (.cut 3 (.cut 0 (.cut 1 (.cut 2 t48 (.cut 3 t49 t50)) (.cut 2 t51 t52)) (.cut 1 (.cut 2 (.cut 3 t53 t54) (.cut 3 (.cut 0 t55 t56) (.cut 0 t57 t58))) (.cut 2 t59 (.cut 3 t60 t61)))) t62) (.cut 3 (.cut 0 (.cut 1 (.cut 2 t63 t64) t65) (.cut 1 (.cut 2 t66 t67) (.cut 2 t68 t69))) (.cut 0 (.cut 1 t70 t71) (.cut 1 t72 (.cut 2 t73 t74)))))) (.cut 1 (.cut 2 (.cut 3 (.cut 0 t75 t76) t77) t78) (.cut 2 (.cut 3 (.cut 0 (.cut 1 (.cut 2 t79 t80) (.cut 2 t81 t82)) (.cut 1 t83 t84)) t85) (.cut 3 (.cut 0 (.cut 1 t86 t87) t88) (.cut 0 (.cut 1 t89 t90) t91))))) t92) t93) (.cut 2 (.cut 3 (.cut 0 (.cut 1 (.cut 2 (.cut 3 (.cut 0 t94 t95) t96) (.cut 3 (.cut 0 t97 t98) (.cut 0 t99 (.cut 1 t100 t101)))) (.cut 2 t102 t103)) (.cut 1 (.cut 2 (.cut 3 (.cut 0 (.cut 1 t104 t105) (.cut 1 t106 t107)) t108) (.cut 3 (.cut 0 t109 t110) (.cut 0 t111 t112))) (.cut 2 t113 (.cut 3 t114 t115)))) t116) (.cut 3 (.cut 0 (.cut 1 (.cut 2 (.cut 3 t117 (.cut 0 t118 t119)) t120) (.cut 2 (.cut 3 t121 t122) t123)) (.cut 1 (.cut 2 (.cut 3 t124 t125) t126) (.cut 2 t127 t128))) (.cut 0 (.cut 1 (.cut 2 (.cut 3 (.cut 0 t129 t130) t131) t132) (.cut 2 (.cut 3 (.cut 0 (.cut 1 t133 t134) t135) t136) (.cut 3 (.cut 0 (.cut 1 t137 t138) (.cut 1 t139 t140)) (.cut 0 (.cut 1 t141 (.cut 2 t142 t143)) (.cut 1 t144 (.cut 2 t145 (.cut 3 t146 t147))))))) (.cut 1 (.cut 2 (.cut 3 t148 t149) t150) (.cut 2 (.cut 3 t151 t152) (.cut 3 (.cut 0 t153 t154) (.cut 0 t155 t156)))))))) (.cut 1 (.cut 2 (.cut 3 (.cut 0 (.cut 1 t157 (.cut 2 t158 t159)) t160) t161) t162) (.cut 2 (.cut 3 (.cut 0 (.cut 1 (.cut 2 (.cut 3 (.cut 0 (.cut 1 t163 t164) t165) t166) (.cut 3 t167 t168)) (.cut 2 (.cut 3 (.cut 0 (.cut 1 t169 t170) (.cut 1 (.cut 2 t171 t172) (.cut 2 t173 t174))) t175) (.cut 3 (.cut 0 t176 t177) t178))) (.cut 1 (.cut 2 t179 t180) (.cut 2 (.cut 3 (.cut 0 (.cut 1 (.cut 2 t181 t182) (.cut 2 (.cut 3 (.cut 0 t183 t184) t185) (.cut 3 (.cut 0 t186 t187) t188))) (.cut 1 t189 (.cut 2 t190 (.cut 3 t191 t192)))) t193) (.cut 3 (.cut 0 (.cut 1 t194 t195) t196) t197)))) t198) (.cut 3 (.cut 0 (.cut 1 t199 (.cut 2 t200 t201)) (.cut 1 t202 (.cut 2 t203 t204))) (.cut 0 (.cut 1 t205 t206) t207))))) t208) (.cut 3 (.cut 0 (.cut 1 t209 (.cut 2 (.cut 3 t210 t211) t212)) t213) t214)) (.cut 2 (.cut 3 (.cut 0 (.cut 1 (.cut 2 (.cut 3 (.cut 0 t215 (.cut 1 (.cut 2 t216 t217) t218)) t219) (.cut 3 (.cut 0 (.cut 1 t220 t221) (.cut 1 (.cut 2 t222 t223) (.cut 2 t224 t225))) (.cut 0 (.cut 1 (.cut 2 t226 (.cut 3 (.cut 0 t227 (.cut 1 t228 t229)) (.cut 0 (.cut 1 (.cut 2 t230 t231) t232) (.cut 1 (.cut 2 t233 (.cut 3 t234 t235)) t236)))) t237) (.cut 1 (.cut 2 t238 (.cut 3 t239 t240)) t241)))) t242) (.cut 1 (.cut 2 (.cut 3 (.cut 0 (.cut 1 (.cut 2 (.cut 3 (.cut 0 t243 (.cut 1 t244 t245)) t246) (.cut 3 (.cut 0 t247 t248) t249)) (.cut 2 t250 (.cut 3 t251 t252))) (.cut 1 (.cut 2 (.cut 3 (.cut 0 (.cut 1 (.cut 2 (.cut 3 (.cut 0 t253 t254) t255) (.cut 3 (.cut 0 t256 t257) t258)) (.cut 2 t259 t260)) (.cut 1 (.cut 2 (.cut 3 t261 t262) (.cut 3 (.cut 0 t263 t264) t265)) (.cut 2 t266 (.cut 3 (.cut 0 t267 t268) t269)))) t270) (.cut 3 (.cut 0 (.cut 1 (.cut 2 t271 t272) (.cut 2 t273 t274)) (.cut 1 (.cut 2 (.cut 3 t275 t276) t277) (.cut 2 (.cut 3 (.cut 0 t278 t279) t280) t281))) (.cut 0 t282 t283))) (.cut 2 (.cut 3 (.cut 0 t284 t285) t286) (.cut 3 (.cut 0 (.cut 1 t287 t288) (.cut 1 (.cut 2 t289 t290) t291)) (.cut 0 t292 t293))))) t294) (.cut 3 (.cut 0 (.cut 1 (.cut 2 t295 t296) (.cut 2 (.cut 3 t297 t298) t299)) (.cut 1 (.cut 2 (.cut 3 (.cut 0 t300 t301) t302) t303) (.cut 2 (.cut 3 (.cut 0 (.cut 1 t304 t305) (.cut 1 t306 t307)) t308) t309))) (.cut 0 t310 t311))) (.cut 2 (.cut 3 (.cut 0 (.cut 1 t312 t313) (.cut 1 (.cut 2 t314 (.cut 3 t315 t316)) t317)) t318) (.cut 3 (.cut 0 (.cut 1 (.cut 2 (.cut 3 t319 t320) t321) t322) t323) t324)))) t325) (.cut 3 (.cut 0 (.cut 1 (.cut 2 (.cut 3 (.cut 0 t326 (.cut 1 t327 t328)) (.cut 0 (.cut 1 (.cut 2 (.cut 3 (.cut 0 t329 t330) (.cut 0 t331 t332)) t333) t334) t335)) t336) t337) (.cut 1 (.cut 2 (.cut 3 t338 t339) t340) t341)) t342))))
theorem checked : check par tree [32768, 32768, 32768, 32768] [32768, 32768, 32768, 32768] st = true := (check_cut (c1 := [16384, 32768, 32768, 32768]) (c2 := [49152, 32768, 32768, 32768]) (h := [16384, 32768, 32768, 32768]) (fun _ => rfl) (check_cut (c1 := [16384, 16384, 32768, 32768]) (c2 := [16384, 49152, 32768, 32768]) (h := [16384, 16384, 32768, 32768]) (fun _ => rfl) (check_cut (c1 := [16384, 16384, 16384, 32768]) (c2 := [16384, 16384, 49152, 32768]) (h := [16384, 16384, 16384, 32768]) (fun _ => rfl) (check_cut (c1 := [16384, 16384, 16384, 16384]) (c2 := [16384, 16384, 16384, 49152]) (h := [16384, 16384, 16384, 16384]) (fun _ => rfl) (check_cut (c1 := [8192, 16384, 16384, 16384]) (c2 := [24576, 16384, 16384, 16384]) (h := [8192, 16384, 16384, 16384]) (fun _ => rfl) h0 (check_cut (c1 := [24576, 8192, 16384, 16384]) (c2 := [24576, 24576, 16384, 16384]) (h := [8192, 8192, 16384, 16384]) (fun _ => rfl) (check_cut (c1 := [24576, 8192, 8192, 16384]) (c2 := [24576, 8192, 24576, 16384]) (h := [8192, 8192, 8192, 16384]) (fun _ => rfl) (check_cut (c1 := [24576, 8192, 8192, 8192]) (c2 := [24576, 8192, 8192, 24576]) (h := [8192, 8192, 8192, 8192]) (fun _ => rfl) (check_cut (c1 := [20480, 8192, 8192, 8192]) (c2 := [28672, 8192, 8192, 8192]) (h := [4096, 8192, 8192, 8192]) (fun _ => rfl) h1 (check_cut (c1 := [28672, 4096, 8192, 8192]) (c2 := [28672, 12288, 8192, 8192]) (h := [4096, 4096, 8192, 8192]) (fun _ => rfl) (check_cut (c1 := [28672, 4096, 4096, 8192]) (c2 := [28672, 4096, 12288, 8192]) (h := [4096, 4096, 4096, 8192]) (fun _ => rfl) (check_cut (c1 := [28672, 4096, 4096, 4096]) (c2 := [28672, 4096, 4096, 12288]) (h := [4096, 4096, 4096, 4096]) (fun _ => rfl) (check_cut (c1 := [26624, 4096, 4096, 4096]) (c2 := [30720, 4096, 4096, 4096]) (h := [2048, 4096, 4096, 4096]) (fun _ => rfl) h2 h3) h4) h5) (check_cut (c1 := [28672, 12288, 4096, 8192]) (c2 := [28672, 12288, 12288, 8192]) (h := [4096, 4096, 4096, 8192]) (fun _ => rfl) (check_cut (c1 := [28672, 12288, 4096, 4096]) (c2 := [28672, 12288, 4096, 12288]) (h := [4096, 4096, 4096, 4096]) (fun _ => rfl) (check_cut (c1 := [26624, 12288, 4096, 4096]) (c2 := [30720, 12288, 4096, 4096]) (h := [2048, 4096, 4096, 4096]) (fun _ => rfl) h6 h7) h8) (check_cut (c1 := [28672, 12288, 12288, 4096]) (c2 := [28672, 12288, 12288, 12288]) (h := [4096, 4096, 4096, 4096]) (fun _ => rfl) h9 h10)))) h11) h12) (check_cut (c1 := [24576, 24576, 8192, 16384]) (c2 := [24576, 24576, 24576, 16384]) (h := [8192, 8192, 8192, 16384]) (fun _ => rfl) (check_cut (c1 := [24576, 24576, 8192, 8192]) (c2 := [24576, 24576, 8192, 24576]) (h := [8192, 8192, 8192, 8192]) (fun _ => rfl) (check_cut (c1 := [20480, 24576, 8192, 8192]) (c2 := [28672, 24576, 8192, 8192]) (h := [4096, 8192, 8192, 8192]) (fun _ => rfl) h13 (check_cut (c1 := [28672, 20480, 8192, 8192]) (c2 := [28672, 28672, 8192, 8192]) (h := [4096, 4096, 8192, 8192]) (fun _ => rfl) (check_cut (c1 := [28672, 20480, 4096, 8192]) (c2 := [28672, 20480, 12288, 8192]) (h := [4096, 4096, 4096, 8192]) (fun _ => rfl) h14 h15) h16)) h17) (check_cut (c1 := [24576, 24576, 24576, 8192]) (c2 := [24576, 24576, 24576, 24576]) (h := [8192, 8192, 8192, 8192]) (fun _ => rfl) (check_cut (c1 := [20480, 24576, 24576, 8192]) (c2 := [28672, 24576, 24576, 8192]) (h := [4096, 8192, 8192, 8192]) (fun _ => rfl) h18 (check_cut (c1 := [28672, 20480, 24576, 8192]) (c2 := [28672, 28672, 24576, 8192]) (h := [4096, 4096, 8192, 8192]) (fun _ => rfl) (check_cut (c1 := [28672, 20480, 20480, 8192]) (c2 := [28672, 20480, 28672, 8192]) (h := [4096, 4096, 4096, 8192]) (fun _ => rfl) h19 h20) (check_cut (c1 := [28672, 28672, 20480, 8192]) (c2 := [28672, 28672, 28672, 8192]) (h := [4096, 4096, 4096, 8192]) (fun _ => rfl) h21 h22))) (check_cut (c1 := [20480, 24576, 24576, 24576]) (c2 := [28672, 24576, 24576, 24576]) (h := [4096, 8192, 8192, 8192]) (fun _ => rfl) h23 (check_cut (c1 := [28672, 20480, 24576, 24576]) (c2 := [28672, 28672, 24576, 24576]) (h := [4096, 4096, 8192, 8192]) (fun _ => rfl) h24 (check_cut (c1 := [28672, 28672, 20480, 24576]) (c2 := [28672, 28672, 28672, 24576]) (h := [4096, 4096, 4096, 8192]) (fun _ => rfl) h25 (check_cut (c1 := [28672, 28672, 28672, 20480]) (c2 := [28672, 28672, 28672, 28672]) (h := [4096, 4096, 4096, 4096]) (fun _ => rfl) (check_cut (c1 := [26624, 28672, 28672, 20480]) (c2 := [30720, 28672, 28672, 20480]) (h := [2048, 4096, 4096, 4096]) (fun _ => rfl) h26 h27) (check_cut (c1 := [26624, 28672, 28672, 28672]) (c2 := [30720, 28672, 28672, 28672]) (h := [2048, 4096, 4096, 4096]) (fun _ => rfl) h28 h29))))))))) h30) h31) (check_cut (c1 := [16384, 49152, 16384, 32768]) (c2 := [16384, 49152, 49152, 32768]) (h := [16384, 16384, 16384, 32768]) (fun _ => rfl) (check_cut (c1 := [16384, 49152, 16384, 16384]) (c2 := [16384, 49152, 16384, 49152]) (h := [16384, 16384, 16384, 16384]) (fun _ => rfl) (check_cut (c1 := [8192, 49152, 16384, 16384]) (c2 := [24576, 49152, 16384, 16384]) (h := [8192, 16384, 16384, 16384]) (fun _ => rfl) h32 (check_cut (c1 := [24576, 40960, 16384, 16384]) (c2 := [24576, 57344, 16384, 16384]) (h := [8192, 8192, 16384, 16384]) (fun _ => rfl) (check_cut (c1 := [24576, 40960, 8192, 16384]) (c2 := [24576, 40960, 24576, 16384]) (h := [8192, 8192, 8192, 16384]) (fun _ => rfl) h33 h34) h35)) h36) h37)) (check_cut (c1 := [49152, 16384, 32768, 32768]) (c2 := [49152, 49152, 32768, 32768]) (h := [16384, 16384, 32768, 32768]) (fun _ => rfl) (check_cut (c1 := [49152, 16384, 16384, 32768]) (c2 := [49152, 16384, 49152, 32768]) (h := [16384, 16384, 16384, 32768]) (fun _ => rfl) (check_cut (c1 := [49152, 16384, 16384, 16384]) (c2 := [49152, 16384, 16384, 49152]) (h := [16384, 16384, 16384, 16384]) (fun _ => rfl) (check_cut (c1 := [40960, 16384, 16384, 16384]) (c2 := [57344, 16384, 16384, 16384]) (h := [8192, 16384, 16384, 16384]) (fun _ => rfl) (check_cut (c1 := [40960, 8192, 16384, 16384]) (c2 := [40960, 24576, 16384, 16384]) (h := [8192, 8192, 16384, 16384]) (fun _ => rfl) (check_cut (c1 := [40960, 8192, 8192, 16384]) (c2 := [40960, 8192, 24576, 16384]) (h := [8192, 8192, 8192, 16384]) (fun _ => rfl) (check_cut (c1 := [40960, 8192, 8192, 8192]) (c2 := [40960, 8192, 8192, 24576]) (h := [8192, 8192, 8192, 8192]) (fun _ => rfl) (check_cut (c1 := [36864, 8192, 8192, 8192]) (c2 := [45056, 8192, 8192, 8192]) (h := [4096, 8192, 8192, 8192]) (fun _ => rfl) (check_cut (c1 := [36864, 4096, 8192, 8192]) (c2 := [36864, 12288, 8192, 8192]) (h := [4096, 4096, 8192, 8192]) (fun _ => rfl) (check_cut (c1 := [36864, 4096, 4096, 8192]) (c2 := [36864, 4096, 12288, 8192]) (h := [4096, 4096, 4096, 8192]) (fun _ => rfl) (check_cut (c1 := [36864, 4096, 4096, 4096]) (c2 := [36864, 4096, 4096, 12288]) (h := [4096, 4096, 4096, 4096]) (fun _ => rfl) (check_cut (c1 := [34816, 4096, 4096, 4096]) (c2 := [38912, 4096, 4096, 4096]) (h := [2048, 4096, 4096, 4096]) (fun _ => rfl) (check_cut (c1 := [34816, 2048, 4096, 4096]) (c2 := [34816, 6144, 4096, 4096]) (h := [2048, 2048, 4096, 4096]) (fun _ => rfl) h38 (check_cut (c1 := [34816, 6144, 2048, 4096]) (c2 := [34816, 6144, 6144, 4096]) (h := [2048, 2048, 2048, 4096]) (fun _ => rfl) h39 (check_cut (c1 := [34816, 6144, 6144, 2048]) (c2 := [34816, 6144, 6144, 6144]) (h := [2048, 2048, 2048, 2048]) (fun _ => rfl) h40 h41))) (check_cut (c1 := [38912, 2048, 4096, 4096]) (c2 := [38912, 6144, 4096, 4096]) (h := [2048, 2048, 4096, 4096]) (fun _ => rfl) h42 (check_cut (c1 := [38912, 6144, 2048, 4096]) (c2 := [38912, 6144, 6144, 4096]) (h := [2048, 2048, 2048, 4096]) (fun _ => rfl) h43 (check_cut (c1 := [38912, 6144, 6144, 2048]) (c2 := [38912, 6144, 6144, 6144]) (h := [2048, 2048, 2048, 2048]) (fun _ => rfl) h44 h45)))) h46) h47) (check_cut (c1 := [36864, 12288, 4096, 8192]) (c2 := [36864, 12288, 12288, 8192]) (h := [4096, 4096, 4096, 8192]) (fun _ => rfl) (check_cut (c1 := [36864, 12288, 4096, 4096]) (c2 := [36864, 12288, 4096, 12288]) (h := [4096, 4096, 4096, 4096]) (fun _ => rfl) (check_cut (c1 := [34816, 12288, 4096, 4096]) (c2 := [38912, 12288, 4096, 4096]) (h := [2048, 4096, 4096, 4096]) (fun _ => rfl) (check_cut (c1 := [34816, 10240, 4096, 4096]) (c2 := [34816, 14336, 4096, 4096]) (h := [2048, 2048, 4096, 4096]) (fun _ => rfl) (check_cut (c1 := [34816, 10240, 2048, 4096]) (c2 := [34816, 10240, 6144, 4096]) (h := [2048, 2048, 2048, 4096]) (fun _ => rfl) h48 (check_cut (c1 := [34816, 10240, 6144, 2048]) (c2 := [34816, 10240, 6144, 6144]) (h := [2048, 2048, 2048, 2048]) (fun _ => rfl) h49 h50)) (check_cut (c1 := [34816, 14336, 2048, 4096]) (c2 := [34816, 14336, 6144, 4096]) (h := [2048, 2048, 2048, 4096]) (fun _ => rfl) h51 h52)) (check_cut (c1 := [38912, 10240, 4096, 4096]) (c2 := [38912, 14336, 4096, 4096]) (h := [2048, 2048, 4096, 4096]) (fun _ => rfl) (check_cut (c1 := [38912, 10240, 2048, 4096]) (c2 := [38912, 10240, 6144, 4096]) (h := [2048, 2048, 2048, 4096]) (fun _ => rfl) (check_cut (c1 := [38912, 10240, 2048, 2048]) (c2 := [38912, 10240, 2048, 6144]) (h := [2048, 2048, 2048, 2048]) (fun _ => rfl) h53 h54) (check_cut (c1 := [38912, 10240, 6144, 2048]) (c2 := [38912, 10240, 6144, 6144]) (h := [2048, 2048, 2048, 2048]) (fun _ => rfl) (check_cut (c1 := [37888, 10240, 6144, 2048]) (c2 := [39936, 10240, 6144, 2048]) (h := [1024, 2048, 2048, 2048]) (fun _ => rfl) h55 h56) (check_cut (c1 := [37888, 10240, 6144, 6144]) (c2 := [39936, 10240, 6144, 6144]) (h := [1024, 2048, 2048, 2048]) (fun _ => rfl) h57 h58))) (check_cut (c1 := [38912, 14336, 2048, 4096]) (c2 := [38912, 14336, 6144, 4096]) (h := [2048, 2048, 2048, 4096]) (fun _ => rfl) h59 (check_cut (c1 := [38912, 14336, 6144, 2048]) (c2 := [38912, 14336, 6144, 6144]) (h := [2048, 2048, 2048, 2048]) (fun _ => rfl) h60 h61)))) h62) (check_cut (c1 := [36864, 12288, 12288, 4096]) (c2 := [36864, 12288, 12288, 12288]) (h := [4096, 4096, 4096, 4096]) (fun _ => rfl) (check_cut (c1 := [34816, 12288, 12288, 4096]) (c2 := [38912, 12288, 12288, 4096]) (h := [2048, 4096, 4096, 4096]) (fun _ => rfl) (check_cut (c1 := [34816, 10240, 12288, 4096]) (c2 := [34816, 14336, 12288, 4096]) (h := [2048, 2048, 4096, 4096]) (fun _ => rfl) (check_cut (c1 := [34816, 10240, 10240, 4096]) (c2 := [34816, 10240, 14336, 4096]) (h := [2048, 2048, 2048, 4096]) (fun _ => rfl) h63 h64) h65) (check_cut (c1 := [38912, 10240, 12288, 4096]) (c2 := [38912, 14336, 12288, 4096]) (h := [2048, 2048, 4096, 4096]) (fun _ => rfl) (check_cut (c1 := [38912, 10240, 10240, 4096]) (c2 := [38912, 10240, 14336, 4096]) (h := [2048, 2048, 2048, 4096]) (fun _ => rfl) h66 h67) (check_cut (c1 := [38912, 14336, 10240, 4096]) (c2 := [38912, 14336, 14336, 4096]) (h := [2048, 2048, 2048, 4096]) (fun _ => rfl) h68 h69))) (check_cut (c1 := [34816, 12288, 12288, 12288]) (c2 := [38912, 12288, 12288, 12288]) (h := [2048, 4096, 4096, 4096]) (fun _ => rfl) (check_cut (c1 := [34816, 10240, 12288, 12288]) (c2 := [34816, 14336, 12288, 12288]) (h := [2048, 2048, 4096, 4096]) (fun _ => rfl) h70 h71) (check_cut (c1 := [38912, 10240, 12288, 12288]) (c2 := [38912, 14336, 12288, 12288]) (h := [2048, 2048, 4096, 4096]) (fun _ => rfl) h72 (check_cut (c1 := [38912, 14336, 10240, 12288]) (c2 := [38912, 14336, 14336, 12288]) (h := [2048, 2048, 2048, 4096]) (fun _ => rfl) h73 h74)))))) (check_cut (c1 := [45056, 4096, 8192, 8192]) (c2 := [45056, 12288, 8192, 8192]) (h := [4096, 4096, 8192, 8192]) (fun _ => rfl) (check_cut (c1 := [45056, 4096, 4096, 8192]) (c2 := [45056, 4096, 12288, 8192]) (h := [4096, 4096, 4096, 8192]) (fun _ => rfl) (check_cut (c1 := [45056, 4096, 4096, 4096]) (c2 := [45056, 4096, 4096, 12288]) (h := [4096, 4096, 4096, 4096]) (fun _ => rfl) (check_cut (c1 := [43008, 4096, 4096, 4096]) (c2 := [47104, 4096, 4096, 4096]) (h := [2048, 4096, 4096, 4096]) (fun _ => rfl) h75 h76) h77) h78) (check_cut (c1 := [45056, 12288, 4096, 8192]) (c2 := [45056, 12288, 12288, 8192]) (h := [4096, 4096, 4096, 8192]) (fun _ => rfl) (check_cut (c1 := [45056, 12288, 4096, 4096]) (c2 := [45056, 12288, 4096, 12288]) (h := [4096, 4096, 4096, 4096]) (fun _ => rfl) (check_cut (c1 := [43008, 12288, 4096, 4096]) (c2 := [47104, 12288, 4096, 4096]) (h := [2048, 4096, 4096, 4096]) (fun _ => rfl) (check_cut (c1 := [43008, 10240, 4096, 4096]) (c2 := [43008, 14336, 4096, 4096]) (h := [2048, 2048, 4096, 4096]) (fun _ => rfl) (check_cut (c1 := [43008, 10240, 2048, 4096]) (c2 := [43008, 10240, 6144, 4096]) (h := [2048, 2048, 2048, 4096]) (fun _ => rfl) h79 h80) (check_cut (c1 := [43008, 14336, 2048, 4096]) (c2 := [43008, 14336, 6144, 4096]) (h := [2048, 2048, 2048, 4096]) (fun _ => rfl) h81 h82)) (check_cut (c1 := [47104, 10240, 4096, 4096]) (c2 := [47104, 14336, 4096, 4096]) (h := [2048, 2048, 4096, 4096]) (fun _ => rfl) h83 h84)) h85) (check_cut (c1 := [45056, 12288, 12288, 4096]) (c2 := [45056, 12288, 12288, 12288]) (h := [4096, 4096, 4096, 4096]) (fun _ => rfl) (check_cut (c1 := [43008, 12288, 12288, 4096]) (c2 := [47104, 12288, 12288, 4096]) (h := [2048, 4096, 4096, 4096]) (fun _ => rfl) (check_cut (c1 := [43008, 10240, 12288, 4096]) (c2 := [43008, 14336, 12288, 4096]) (h := [2048, 2048, 4096, 4096]) (fun _ => rfl) h86 h87) h88) (check_cut (c1 := [43008, 12288, 12288, 12288]) (c2 := [47104, 12288, 12288, 12288]) (h := [2048, 4096, 4096, 4096]) (fun _ => rfl) (check_cut (c1 := [43008, 10240, 12288, 12288]) (c2 := [43008, 14336, 12288, 12288]) (h := [2048, 2048, 4096, 4096]) (fun _ => rfl) h89 h90) h91))))) h92) h93) (check_cut (c1 := [40960, 24576, 8192, 16384]) (c2 := [40960, 24576, 24576, 16384]) (h := [8192, 8192, 8192, 16384]) (fun _ => rfl) (check_cut (c1 := [40960, 24576, 8192, 8192]) (c2 := [40960, 24576, 8192, 24576]) (h := [8192, 8192, 8192, 8192]) (fun _ => rfl) (check_cut (c1 := [36864, 24576, 8192, 8192]) (c2 := [45056, 24576, 8192, 8192]) (h := [4096, 8192, 8192, 8192]) (fun _ => rfl) (check_cut (c1 := [36864, 20480, 8192, 8192]) (c2 := [36864, 28672, 8192, 8192]) (h := [4096, 4096, 8192, 8192]) (fun _ => rfl) (check_cut (c1 := [36864, 20480, 4096, 8192]) (c2 := [36864, 20480, 12288, 8192]) (h := [4096, 4096, 4096, 8192]) (fun _ => rfl) (check_cut (c1 := [36864, 20480, 4096, 4096]) (c2 := [36864, 20480, 4096, 12288]) (h := [4096, 4096, 4096, 4096]) (fun _ => rfl) (check_cut (c1 := [34816, 20480, 4096, 4096]) (c2 := [38912, 20480, 4096, 4096]) (h := [2048, 4096, 4096, 4096]) (fun _ => rfl) h94 h95) h96) (check_cut (c1 := [36864, 20480, 12288, 4096]) (c2 := [36864, 20480, 12288, 12288]) (h := [4096, 4096, 4096, 4096]) (fun _ => rfl) (check_cut (c1 := [34816, 20480, 12288, 4096]) (c2 := [38912, 20480, 12288, 4096]) (h := [2048, 4096, 4096, 4096]) (fun _ => rfl) h97 h98) (check_cut (c1 := [34816, 20480, 12288, 12288]) (c2 := [38912, 20480, 12288, 12288]) (h := [2048, 4096, 4096, 4096]) (fun _ => rfl) h99 (check_cut (c1 := [38912, 18432, 12288, 12288]) (c2 := [38912, 22528, 12288, 12288]) (h := [2048, 2048, 4096, 4096]) (fun _ => rfl) h100 h101)))) (check_cut (c1 := [36864, 28672, 4096, 8192]) (c2 := [36864, 28672, 12288, 8192]) (h := [4096, 4096, 4096, 8192]) (fun _ => rfl) h102 h103)) (check_cut (c1 := [45056, 20480, 8192, 8192]) (c2 := [45056, 28672, 8192, 8192]) (h := [4096, 4096, 8192, 8192]) (fun _ => rfl) (check_cut (c1 := [45056, 20480, 4096, 8192]) (c2 := [45056, 20480, 12288, 8192]) (h := [4096, 4096, 4096, 8192]) (fun _ => rfl) (check_cut (c1 := [45056, 20480, 4096, 4096]) (c2 := [45056, 20480, 4096, 12288]) (h := [4096, 4096, 4096, 4096]) (fun _ => rfl) (check_cut (c1 := [43008, 20480, 4096, 4096]) (c2 := [47104, 20480, 4096, 4096]) (h := [2048, 4096, 4096, 4096]) (fun _ => rfl) (check_cut (c1 := [43008, 18432, 4096, 4096]) (c2 := [43008, 22528, 4096, 4096]) (h := [2048, 2048, 4096, 4096]) (fun _ => rfl) h104 h105) (check_cut (c1 := [47104, 18432, 4096, 4096]) (c2 := [47104, 22528, 4096, 4096]) (h := [2048, 2048, 4096, 4096]) (fun _ => rfl) h106 h107)) h108) (check_cut (c1 := [45056, 20480, 12288, 4096]) (c2 := [45056, 20480, 12288, 12288]) (h := [4096, 4096, 4096, 4096]) (fun _ => rfl) (check_cut (c1 := [43008, 20480, 12288, 4096]) (c2 := [47104, 20480, 12288, 4096]) (h := [2048, 4096, 4096, 4096]) (fun _ => rfl) h109 h110) (check_cut (c1 := [43008, 20480, 12288, 12288]) (c2 := [47104, 20480, 12288, 12288]) (h := [2048, 4096, 4096, 4096]) (fun _ => rfl) h111 h112))) (check_cut (c1 := [45056, 28672, 4096, 8192]) (c2 := [45056, 28672, 12288, 8192]) (h := [4096, 4096, 4096, 8192]) (fun _ => rfl) h113 (check_cut (c1 := [45056, 28672, 12288, 4096]) (c2 := [45056, 28672, 12288, 12288]) (h := [4096, 4096, 4096, 4096]) (fun _ => rfl) h114 h115)))) h116) (check_cut (c1 := [40960, 24576, 24576, 8192]) (c2 := [40960, 24576, 24576, 24576]) (h := [8192, 8192, 8192, 8192]) (fun _ => rfl) (check_cut (c1 := [36864, 24576, 24576, 8192]) (c2 := [45056, 24576, 24576, 8192]) (h := [4096, 8192, 8192, 8192]) (fun _ => rfl) (check_cut (c1 := [36864, 20480, 24576, 8192]) (c2 := [36864, 28672, 24576, 8192]) (h := [4096, 4096, 8192, 8192]) (fun _ => rfl) (check_cut (c1 := [36864, 20480, 20480, 8192]) (c2 := [36864, 20480, 28672, 8192]) (h := [4096, 4096, 4096, 8192]) (fun _ => rfl) (check_cut (c1 := [36864, 20480, 20480, 4096]) (c2 := [36864, 20480, 20480, 12288]) (h := [4096, 4096, 4096, 4096]) (fun _ => rfl) h117 (check_cut (c1 := [34816, 20480, 20480, 12288]) (c2 := [38912, 20480, 20480, 12288]) (h := [2048, 4096, 4096, 4096]) (fun _ => rfl) h118 h119)) h120) (check_cut (c1 := [36864, 28672, 20480, 8192]) (c2 := [36864, 28672, 28672, 8192]) (h := [4096, 4096, 4096, 8192]) (fun _ => rfl) (check_cut (c1 := [36864, 28672, 20480, 4096]) (c2 := [36864, 28672, 20480, 12288]) (h := [4096, 4096, 4096, 4096]) (fun _ => rfl) h121 h122) h123)) (check_cut (c1 := [45056, 20480, 24576, 8192]) (c2 := [45056, 28672, 24576, 8192]) (h := [4096, 4096, 8192, 8192]) (fun _ => rfl) (check_cut (c1 := [45056, 20480, 20480, 8192]) (c2 := [45056, 20480, 28672, 8192]) (h := [4096, 4096, 4096, 8192]) (fun _ => rfl) (check_cut (c1 := [45056, 20480, 20480, 4096]) (c2 := [45056, 20480, 20480, 12288]) (h := [4096, 4096, 4096, 4096]) (fun _ => rfl) h124 h125) h126) (check_cut (c1 := [45056, 28672, 20480, 8192]) (c2 := [45056, 28672, 28672, 8192]) (h := [4096, 4096, 4096, 8192]) (fun _ => rfl) h127 h128))) (check_cut (c1 := [36864, 24576, 24576, 24576]) (c2 := [45056, 24576, 24576, 24576]) (h := [4096, 8192, 8192, 8192]) (fun _ => rfl) (check_cut (c1 := [36864, 20480, 24576, 24576]) (c2 := [36864, 28672, 24576, 24576]) (h := [4096, 4096, 8192, 8192]) (fun _ => rfl) (check_cut (c1 := [36864, 20480, 20480, 24576]) (c2 := [36864, 20480, 28672, 24576]) (h := [4096, 4096, 4096, 8192]) (fun _ => rfl) (check_cut (c1 := [36864, 20480, 20480, 20480]) (c2 := [36864, 20480, 20480, 28672]) (h := [4096, 4096, 4096, 4096]) (fun _ => rfl) (check_cut (c1 := [34816, 20480, 20480, 20480]) (c2 := [38912, 20480, 20480, 20480]) (h := [2048, 4096, 4096, 4096]) (fun _ => rfl) h129 h130) h131) h132) (check_cut (c1 := [36864, 28672, 20480, 24576]) (c2 := [36864, 28672, 28672, 24576]) (h := [4096, 4096, 4096, 8192]) (fun _ => rfl) (check_cut (c1 := [36864, 28672, 20480, 20480]) (c2 := [36864, 28672, 20480, 28672]) (h := [4096, 4096, 4096, 4096]) (fun _ => rfl) (check_cut (c1 := [34816, 28672, 20480, 20480]) (c2 := [38912, 28672, 20480, 20480]) (h := [2048, 4096, 4096, 4096]) (fun _ => rfl) (check_cut (c1 := [34816, 26624, 20480, 20480]) (c2 := [34816, 30720, 20480, 20480]) (h := [2048, 2048, 4096, 4096]) (fun _ => rfl) h133 h134) h135) h136) (check_cut (c1 := [36864, 28672, 28672, 20480]) (c2 := [36864, 28672, 28672, 28672]) (h := [4096, 4096, 4096, 4096]) (fun _ => rfl) (check_cut (c1 := [34816, 28672, 28672, 20480]) (c2 := [38912, 28672, 28672, 20480]) (h := [2048, 4096, 4096, 4096]) (fun _ => rfl) (check_cut (c1 := [34816, 26624, 28672, 20480]) (c2 := [34816, 30720, 28672, 20480]) (h := [2048, 2048, 4096, 4096]) (fun _ => rfl) h137 h138) (check_cut (c1 := [38912, 26624, 28672, 20480]) (c2 := [38912, 30720, 28672, 20480]) (h := [2048, 2048, 4096, 4096]) (fun _ => rfl) h139 h140)) (check_cut (c1 := [34816, 28672, 28672, 28672]) (c2 := [38912, 28672, 28672, 28672]) (h := [2048, 4096, 4096, 4096]) (fun _ => rfl) (check_cut (c1 := [34816, 26624, 28672, 28672]) (c2 := [34816, 30720, 28672, 28672]) (h := [2048, 2048, 4096, 4096]) (fun _ => rfl) h141 (check_cut (c1 := [34816, 30720, 26624, 28672]) (c2 := [34816, 30720, 30720, 28672]) (h := [2048, 2048, 2048, 4096]) (fun _ => rfl) h142 h143)) (check_cut (c1 := [38912, 26624, 28672, 28672]) (c2 := [38912, 30720, 28672, 28672]) (h := [2048, 2048, 4096, 4096]) (fun _ => rfl) h144 (check_cut (c1 := [38912, 30720, 26624, 28672]) (c2 := [38912, 30720, 30720, 28672]) (h := [2048, 2048, 2048, 4096]) (fun _ => rfl) h145 (check_cut (c1 := [38912, 30720, 30720, 26624]) (c2 := [38912, 30720, 30720, 30720]) (h := [2048, 2048, 2048, 2048]) (fun _ => rfl) h146 h147))))))) (check_cut (c1 := [45056, 20480, 24576, 24576]) (c2 := [45056, 28672, 24576, 24576]) (h := [4096, 4096, 8192, 8192]) (fun _ => rfl) (check_cut (c1 := [45056, 20480, 20480, 24576]) (c2 := [45056, 20480, 28672, 24576]) (h := [4096, 4096, 4096, 8192]) (fun _ => rfl) (check_cut (c1 := [45056, 20480, 20480, 20480]) (c2 := [45056, 20480, 20480, 28672]) (h := [4096, 4096, 4096, 4096]) (fun _ => rfl) h148 h149) h150) (check_cut (c1 := [45056, 28672, 20480, 24576]) (c2 := [45056, 28672, 28672, 24576]) (h := [4096, 4096, 4096, 8192]) (fun _ => rfl) (check_cut (c1 := [45056, 28672, 20480, 20480]) (c2 := [45056, 28672, 20480, 28672]) (h := [4096, 4096, 4096, 4096]) (fun _ => rfl) h151 h152) (check_cut (c1 := [45056, 28672, 28672, 20480]) (c2 := [45056, 28672, 28672, 28672]) (h := [4096, 4096, 4096, 4096]) (fun _ => rfl) (check_cut (c1 := [43008, 28672, 28672, 20480]) (c2 := [47104, 28672, 28672, 20480]) (h := [2048, 4096, 4096, 4096]) (fun _ => rfl) h153 h154) (check_cut (c1 := [43008, 28672, 28672, 28672]) (c2 := [47104, 28672, 28672, 28672]) (h := [2048, 4096, 4096, 4096]) (fun _ => rfl) h155 h156)))))))) (check_cut (c1 := [57344, 8192, 16384, 16384]) (c2 := [57344, 24576, 16384, 16384]) (h := [8192, 8192, 16384, 16384]) (fun _ => rfl) (check_cut (c1 := [57344, 8192, 8192, 16384]) (c2 := [57344, 8192, 24576, 16384]) (h := [8192, 8192, 8192, 16384]) (fun _ => rfl) (check_cut (c1 := [57344, 8192, 8192, 8192]) (c2 := [57344, 8192, 8192, 24576]) (h := [8192, 8192, 8192, 8192]) (fun _ => rfl) (check_cut (c1 := [53248, 8192, 8192, 8192]) (c2 := [61440, 8192, 8192, 8192]) (h := [4096, 8192, 8192, 8192]) (fun _ => rfl) (check_cut (c1 := [53248, 4096, 8192, 8192]) (c2 := [53248, 12288, 8192, 8192]) (h := [4096, 4096, 8192, 8192]) (fun _ => rfl) h157 (check_cut (c1 := [53248, 12288, 4096, 8192]) (c2 := [53248, 12288, 12288, 8192]) (h := [4096, 4096, 4096, 8192]) (fun _ => rfl) h158 h159)) h160) h161) h162) (check_cut (c1 := [57344, 24576, 8192, 16384]) (c2 := [57344, 24576, 24576, 16384]) (h := [8192, 8192, 8192, 16384]) (fun _ => rfl) (check_cut (c1 := [57344, 24576, 8192, 8192]) (c2 := [57344, 24576, 8192, 24576]) (h := [8192, 8192, 8192, 8192]) (fun _ => rfl) (check_cut (c1 := [53248, 24576, 8192, 8192]) (c2 := [61440, 24576, 8192, 8192]) (h := [4096, 8192, 8192, 8192]) (fun _ => rfl) (check_cut (c1 := [53248, 20480, 8192, 8192]) (c2 := [53248, 28672, 8192, 8192]) (h := [4096, 4096, 8192, 8192]) (fun _ => rfl) (check_cut (c1 := [53248, 20480, 4096, 8192]) (c2 := [53248, 20480, 12288, 8192]) (h := [4096, 4096, 4096, 8192]) (fun _ => rfl) (check_cut (c1 := [53248, 20480, 4096, 4096]) (c2 := [53248, 20480, 4096, 12288]) (h := [4096, 4096, 4096, 4096]) (fun _ => rfl) (check_cut (c1 := [51200, 20480, 4096, 4096]) (c2 := [55296, 20480, 4096, 4096]) (h := [2048, 4096, 4096, 4096]) (fun _ => rfl) (check_cut (c1 := [51200, 18432, 4096, 4096]) (c2 := [51200, 22528, 4096, 4096]) (h := [2048, 2048, 4096, 4096]) (fun _ => rfl) h163 h164) h165) h166) (check_cut (c1 := [53248, 20480, 12288, 4096]) (c2 := [53248, 20480, 12288, 12288]) (h := [4096, 4096, 4096, 4096]) (fun _ => rfl) h167 h168)) (check_cut (c1 := [53248, 28672, 4096, 8192]) (c2 := [53248, 28672, 12288, 8192]) (h := [4096, 4096, 4096, 8192]) (fun _ => rfl) (check_cut (c1 := [53248, 28672, 4096, 4096]) (c2 := [53248, 28672, 4096, 12288]) (h := [4096, 4096, 4096, 4096]) (fun _ => rfl) (check_cut (c1 := [51200, 28672, 4096, 4096]) (c2 := [55296, 28672, 4096, 4096]) (h := [2048, 4096, 4096, 4096]) (fun _ => rfl) (check_cut (c1 := [51200, 26624, 4096, 4096]) (c2 := [51200, 30720, 4096, 4096]) (h := [2048, 2048, 4096, 4096]) (fun _ => rfl) h169 h170) (check_cut (c1 := [55296, 26624, 4096, 4096]) (c2 := [55296, 30720, 4096, 4096]) (h := [2048, 2048, 4096, 4096]) (fun _ => rfl) (check_cut (c1 := [55296, 26624, 2048, 4096]) (c2 := [55296, 26624, 6144, 4096]) (h := [2048, 2048, 2048, 4096]) (fun _ => rfl) h171 h172) (check_cut (c1 := [55296, 30720, 2048, 4096]) (c2 := [55296, 30720, 6144, 4096]) (h := [2048, 2048, 2048, 4096]) (fun _ => rfl) h173 h174))) h175) (check_cut (c1 := [53248, 28672, 12288, 4096]) (c2 := [53248, 28672, 12288, 12288]) (h := [4096, 4096, 4096, 4096]) (fun _ => rfl) (check_cut (c1 := [51200, 28672, 12288, 4096]) (c2 := [55296, 28672, 12288, 4096]) (h := [2048, 4096, 4096, 4096]) (fun _ => rfl) h176 h177) h178))) (check_cut (c1 := [61440, 20480, 8192, 8192]) (c2 := [61440, 28672, 8192, 8192]) (h := [4096, 4096, 8192, 8192]) (fun _ => rfl) (check_cut (c1 := [61440, 20480, 4096, 8192]) (c2 := [61440, 20480, 12288, 8192]) (h := [4096, 4096, 4096, 8192]) (fun _ => rfl) h179 h180) (check_cut (c1 := [61440, 28672, 4096, 8192]) (c2 := [61440, 28672, 12288, 8192]) (h := [4096, 4096, 4096, 8192]) (fun _ => rfl) (check_cut (c1 := [61440, 28672, 4096, 4096]) (c2 := [61440, 28672, 4096, 12288]) (h := [4096, 4096, 4096, 4096]) (fun _ => rfl) (check_cut (c1 := [59392, 28672, 4096, 4096]) (c2 := [63488, 28672, 4096, 4096]) (h := [2048, 4096, 4096, 4096]) (fun _ => rfl) (check_cut (c1 := [59392, 26624, 4096, 4096]) (c2 := [59392, 30720, 4096, 4096]) (h := [2048, 2048, 4096, 4096]) (fun _ => rfl) (check_cut (c1 := [59392, 26624, 2048, 4096]) (c2 := [59392, 26624, 6144, 4096]) (h := [2048, 2048, 2048, 4096]) (fun _ => rfl) h181 h182) (check_cut (c1 := [59392, 30720, 2048, 4096]) (c2 := [59392, 30720, 6144, 4096]) (h := [2048, 2048, 2048, 4096]) (fun _ => rfl) (check_cut (c1 := [59392, 30720, 2048, 2048]) (c2 := [59392, 30720, 2048, 6144]) (h := [2048, 2048, 2048, 2048]) (fun _ => rfl) (check_cut (c1 := [58368, 30720, 2048, 2048]) (c2 := [60416, 30720, 2048, 2048]) (h := [1024, 2048, 2048, 2048]) (fun _ => rfl) h183 h184) h185) (check_cut (c1 := [59392, 30720, 6144, 2048]) (c2 := [59392, 30720, 6144, 6144]) (h := [2048, 2048, 2048, 2048]) (fun _ => rfl) (check_cut (c1 := [58368, 30720, 6144, 2048]) (c2 := [60416, 30720, 6144, 2048]) (h := [1024, 2048, 2048, 2048]) (fun _ => rfl) h186 h187) h188))) (check_cut (c1 := [63488, 26624, 4096, 4096]) (c2 := [63488, 30720, 4096, 4096]) (h := [2048, 2048, 4096, 4096]) (fun _ => rfl) h189 (check_cut (c1 := [63488, 30720, 2048, 4096]) (c2 := [63488, 30720, 6144, 4096]) (h := [2048, 2048, 2048, 4096]) (fun _ => rfl) h190 (check_cut (c1 := [63488, 30720, 6144, 2048]) (c2 := [63488, 30720, 6144, 6144]) (h := [2048, 2048, 2048, 2048]) (fun _ => rfl) h191 h192)))) h193) (check_cut (c1 := [61440, 28672, 12288, 4096]) (c2 := [61440, 28672, 12288, 12288]) (h := [4096, 4096, 4096, 4096]) (fun _ => rfl) (check_cut (c1 := [59392, 28672, 12288, 4096]) (c2 := [63488, 28672, 12288, 4096]) (h := [2048, 4096, 4096, 4096]) (fun _ => rfl) (check_cut (c1 := [59392, 26624, 12288, 4096]) (c2 := [59392, 30720, 12288, 4096]) (h := [2048, 2048, 4096, 4096]) (fun _ => rfl) h194 h195) h196) h197)))) h198) (check_cut (c1 := [57344, 24576, 24576, 8192]) (c2 := [57344, 24576, 24576, 24576]) (h := [8192, 8192, 8192, 8192]) (fun _ => rfl) (check_cut (c1 := [53248, 24576, 24576, 8192]) (c2 := [61440, 24576, 24576, 8192]) (h := [4096, 8192, 8192, 8192]) (fun _ => rfl) (check_cut (c1 := [53248, 20480, 24576, 8192]) (c2 := [53248, 28672, 24576, 8192]) (h := [4096, 4096, 8192, 8192]) (fun _ => rfl) h199 (check_cut (c1 := [53248, 28672, 20480, 8192]) (c2 := [53248, 28672, 28672, 8192]) (h := [4096, 4096, 4096, 8192]) (fun _ => rfl) h200 h201)) (check_cut (c1 := [61440, 20480, 24576, 8192]) (c2 := [61440, 28672, 24576, 8192]) (h := [4096, 4096, 8192, 8192]) (fun _ => rfl) h202 (check_cut (c1 := [61440, 28672, 20480, 8192]) (c2 := [61440, 28672, 28672, 8192]) (h := [4096, 4096, 4096, 8192]) (fun _ => rfl) h203 h204))) (check_cut (c1 := [53248, 24576, 24576, 24576]) (c2 := [61440, 24576, 24576, 24576]) (h := [4096, 8192, 8192, 8192]) (fun _ => rfl) (check_cut (c1 := [53248, 20480, 24576, 24576]) (c2 := [53248, 28672, 24576, 24576]) (h := [4096, 4096, 8192, 8192]) (fun _ => rfl) h205 h206) h207))))) h208) (check_cut (c1 := [49152, 16384, 49152, 16384]) (c2 := [49152, 16384, 49152, 49152]) (h := [16384, 16384, 16384, 16384]) (fun _ => rfl) (check_cut (c1 := [40960, 16384, 49152, 16384]) (c2 := [57344, 16384, 49152, 16384]) (h := [8192, 16384, 16384, 16384]) (fun _ => rfl) (check_cut (c1 := [40960, 8192, 49152, 16384]) (c2 := [40960, 24576, 49152, 16384]) (h := [8192, 8192, 16384, 16384]) (fun _ => rfl) h209 (check_cut (c1 := [40960, 24576, 40960, 16384]) (c2 := [40960, 24576, 57344, 16384]) (h := [8192, 8192, 8192, 16384]) (fun _ => rfl) (check_cut (c1 := [40960, 24576, 40960, 8192]) (c2 := [40960, 24576, 40960, 24576]) (h := [8192, 8192, 8192, 8192]) (fun _ => rfl) h210 h211) h212)) h213) h214)) (check_cut (c1 := [49152, 49152, 16384, 32768]) (c2 := [49152, 49152, 49152, 32768]) (h := [16384, 16384, 16384, 32768]) (fun _ => rfl) (check_cut (c1 := [49152, 49152, 16384, 16384]) (c2 := [49152, 49152, 16384, 49152]) (h := [16384, 16384, 16384, 16384]) (fun _ => rfl) (check_cut (c1 := [40960, 49152, 16384, 16384]) (c2 := [57344, 49152, 16384, 16384]) (h := [8192, 16384, 16384, 16384]) (fun _ => rfl) (check_cut (c1 := [40960, 40960, 16384, 16384]) (c2 := [40960, 57344, 16384, 16384]) (h := [8192, 8192, 16384, 16384]) (fun _ => rfl) (check_cut (c1 := [40960, 40960, 8192, 16384]) (c2 := [40960, 40960, 24576, 16384]) (h := [8192, 8192, 8192, 16384]) (fun _ => rfl) (check_cut (c1 := [40960, 40960, 8192, 8192]) (c2 := [40960, 40960, 8192, 24576]) (h := [8192, 8192, 8192, 8192]) (fun _ => rfl) (check_cut (c1 := [36864, 40960, 8192, 8192]) (c2 := [45056, 40960, 8192, 8192]) (h := [4096, 8192, 8192, 8192]) (fun _ => rfl) h215 (check_cut (c1 := [45056, 36864, 8192, 8192]) (c2 := [45056, 45056, 8192, 8192]) (h := [4096, 4096, 8192, 8192]) (fun _ => rfl) (check_cut (c1 := [45056, 36864, 4096, 8192]) (c2 := [45056, 36864, 12288, 8192]) (h := [4096, 4096, 4096, 8192]) (fun _ => rfl) h216 h217) h218)) h219) (check_cut (c1 := [40960, 40960, 24576, 8192]) (c2 := [40960, 40960, 24576, 24576]) (h := [8192, 8192, 8192, 8192]) (fun _ => rfl) (check_cut (c1 := [36864, 40960, 24576, 8192]) (c2 := [45056, 40960, 24576, 8192]) (h := [4096, 8192, 8192, 8192]) (fun _ => rfl) (check_cut (c1 := [36864, 36864, 24576, 8192]) (c2 := [36864, 45056, 24576, 8192]) (h := [4096, 4096, 8192, 8192]) (fun _ => rfl) h220 h221) (check_cut (c1 := [45056, 36864, 24576, 8192]) (c2 := [45056, 45056, 24576, 8192]) (h := [4096, 4096, 8192, 8192]) (fun _ => rfl) (check_cut (c1 := [45056, 36864, 20480, 8192]) (c2 := [45056, 36864, 28672, 8192]) (h := [4096, 4096, 4096, 8192]) (fun _ => rfl) h222 h223) (check_cut (c1 := [45056, 45056, 20480, 8192]) (c2 := [45056, 45056, 28672, 8192]) (h := [4096, 4096, 4096, 8192]) (fun _ => rfl) h224 h225))) (check_cut (c1 := [36864, 40960, 24576, 24576]) (c2 := [45056, 40960, 24576, 24576]) (h := [4096, 8192, 8192, 8192]) (fun _ => rfl) (check_cut (c1 := [36864, 36864, 24576, 24576]) (c2 := [36864, 45056, 24576, 24576]) (h := [4096, 4096, 8192, 8192]) (fun _ => rfl) (check_cut (c1 := [36864, 36864, 20480, 24576]) (c2 := [36864, 36864, 28672, 24576]) (h := [4096, 4096, 4096, 8192]) (fun _ => rfl) h226 (check_cut (c1 := [36864, 36864, 28672, 20480]) (c2 := [36864, 36864, 28672, 28672]) (h := [4096, 4096, 4096, 4096]) (fun _ => rfl) (check_cut (c1 := [34816, 36864, 28672, 20480]) (c2 := [38912, 36864, 28672, 20480]) (h := [2048, 4096, 4096, 4096]) (fun _ => rfl) h227 (check_cut (c1 := [38912, 34816, 28672, 20480]) (c2 := [38912, 38912, 28672, 20480]) (h := [2048, 2048, 4096, 4096]) (fun _ => rfl) h228 h229)) (check_cut (c1 := [34816, 36864, 28672, 28672]) (c2 := [38912, 36864, 28672, 28672]) (h := [2048, 4096, 4096, 4096]) (fun _ => rfl) (check_cut (c1 := [34816, 34816, 28672, 28672]) (c2 := [34816, 38912, 28672, 28672]) (h := [2048, 2048, 4096, 4096]) (fun _ => rfl) (check_cut (c1 := [34816, 34816, 26624, 28672]) (c2 := [34816, 34816, 30720, 28672]) (h := [2048, 2048, 2048, 4096]) (fun _ => rfl) h230 h231) h232) (check_cut (c1 := [38912, 34816, 28672, 28672]) (c2 := [38912, 38912, 28672, 28672]) (h := [2048, 2048, 4096, 4096]) (fun _ => rfl) (check_cut (c1 := [38912, 34816, 26624, 28672]) (c2 := [38912, 34816, 30720, 28672]) (h := [2048, 2048, 2048, 4096]) (fun _ => rfl) h233 (check_cut (c1 := [38912, 34816, 30720, 26624]) (c2 := [38912, 34816, 30720, 30720]) (h := [2048, 2048, 2048, 2048]) (fun _ => rfl) h234 h235)) h236)))) h237) (check_cut (c1 := [45056, 36864, 24576, 24576]) (c2 := [45056, 45056, 24576, 24576]) (h := [4096, 4096, 8192, 8192]) (fun _ => rfl) (check_cut (c1 := [45056, 36864, 20480, 24576]) (c2 := [45056, 36864, 28672, 24576]) (h := [4096, 4096, 4096, 8192]) (fun _ => rfl) h238 (check_cut (c1 := [45056, 36864, 28672, 20480]) (c2 := [45056, 36864, 28672, 28672]) (h := [4096, 4096, 4096, 4096]) (fun _ => rfl) h239 h240)) h241)))) h242) (check_cut (c1 := [57344, 40960, 16384, 16384]) (c2 := [57344, 57344, 16384, 16384]) (h := [8192, 8192, 16384, 16384]) (fun _ => rfl) (check_cut (c1 := [57344, 40960, 8192, 16384]) (c2 := [57344, 40960, 24576, 16384]) (h := [8192, 8192, 8192, 16384]) (fun _ => rfl) (check_cut (c1 := [57344, 40960, 8192, 8192]) (c2 := [57344, 40960, 8192, 24576]) (h := [8192, 8192, 8192, 8192]) (fun _ => rfl) (check_cut (c1 := [53248, 40960, 8192, 8192]) (c2 := [61440, 40960, 8192, 8192]) (h := [4096, 8192, 8192, 8192]) (fun _ => rfl) (check_cut (c1 := [53248, 36864, 8192, 8192]) (c2 := [53248, 45056, 8192, 8192]) (h := [4096, 4096, 8192, 8192]) (fun _ => rfl) (check_cut (c1 := [53248, 36864, 4096, 8192]) (c2 := [53248, 36864, 12288, 8192]) (h := [4096, 4096, 4096, 8192]) (fun _ => rfl) (check_cut (c1 := [53248, 36864, 4096, 4096]) (c2 := [53248, 36864, 4096, 12288]) (h := [4096, 4096, 4096, 4096]) (fun _ => rfl) (check_cut (c1 := [51200, 36864, 4096, 4096]) (c2 := [55296, 36864, 4096, 4096]) (h := [2048, 4096, 4096, 4096]) (fun _ => rfl) h243 (check_cut (c1 := [55296, 34816, 4096, 4096]) (c2 := [55296, 38912, 4096, 4096]) (h := [2048, 2048, 4096, 4096]) (fun _ => rfl) h244 h245)) h246) (check_cut (c1 := [53248, 36864, 12288, 4096]) (c2 := [53248, 36864, 12288, 12288]) (h := [4096, 4096, 4096, 4096]) (fun _ => rfl) (check_cut (c1 := [51200, 36864, 12288, 4096]) (c2 := [55296, 36864, 12288, 4096]) (h := [2048, 4096, 4096, 4096]) (fun _ => rfl) h247 h248) h249)) (check_cut (c1 := [53248, 45056, 4096, 8192]) (c2 := [53248, 45056, 12288, 8192]) (h := [4096, 4096, 4096, 8192]) (fun _ => rfl) h250 (check_cut (c1 := [53248, 45056, 12288, 4096]) (c2 := [53248, 45056, 12288, 12288]) (h := [4096, 4096, 4096, 4096]) (fun _ => rfl) h251 h252))) (check_cut (c1 := [61440, 36864, 8192, 8192]) (c2 := [61440, 45056, 8192, 8192]) (h := [4096, 4096, 8192, 8192]) (fun _ => rfl) (check_cut (c1 := [61440, 36864, 4096, 8192]) (c2 := [61440, 36864, 12288, 8192]) (h := [4096, 4096, 4096, 8192]) (fun _ => rfl) (check_cut (c1 := [61440, 36864, 4096, 4096]) (c2 := [61440, 36864, 4096, 12288]) (h := [4096, 4096, 4096, 4096]) (fun _ => rfl) (check_cut (c1 := [59392, 36864, 4096, 4096]) (c2 := [63488, 36864, 4096, 4096]) (h := [2048, 4096, 4096, 4096]) (fun _ => rfl) (check_cut (c1 := [59392, 34816, 4096, 4096]) (c2 := [59392, 38912, 4096, 4096]) (h := [2048, 2048, 4096, 4096]) (fun _ => rfl) (check_cut (c1 := [59392, 34816, 2048, 4096]) (c2 := [59392, 34816, 6144, 4096]) (h := [2048, 2048, 2048, 4096]) (fun _ => rfl) (check_cut (c1 := [59392, 34816, 2048, 2048]) (c2 := [59392, 34816, 2048, 6144]) (h := [2048, 2048, 2048, 2048]) (fun _ => rfl) (check_cut (c1 := [58368, 34816, 2048, 2048]) (c2 := [60416, 34816, 2048, 2048]) (h := [1024, 2048, 2048, 2048]) (fun _ => rfl) h253 h254) h255) (check_cut (c1 := [59392, 34816, 6144, 2048]) (c2 := [59392, 34816, 6144, 6144]) (h := [2048, 2048, 2048, 2048]) (fun _ => rfl) (check_cut (c1 := [58368, 34816, 6144, 2048]) (c2 := [60416, 34816, 6144, 2048]) (h := [1024, 2048, 2048, 2048]) (fun _ => rfl) h256 h257) h258)) (check_cut (c1 := [59392, 38912, 2048, 4096]) (c2 := [59392, 38912, 6144, 4096]) (h := [2048, 2048, 2048, 4096]) (fun _ => rfl) h259 h260)) (check_cut (c1 := [63488, 34816, 4096, 4096]) (c2 := [63488, 38912, 4096, 4096]) (h := [2048, 2048, 4096, 4096]) (fun _ => rfl) (check_cut (c1 := [63488, 34816, 2048, 4096]) (c2 := [63488, 34816, 6144, 4096]) (h := [2048, 2048, 2048, 4096]) (fun _ => rfl) (check_cut (c1 := [63488, 34816, 2048, 2048]) (c2 := [63488, 34816, 2048, 6144]) (h := [2048, 2048, 2048, 2048]) (fun _ => rfl) h261 h262) (check_cut (c1 := [63488, 34816, 6144, 2048]) (c2 := [63488, 34816, 6144, 6144]) (h := [2048, 2048, 2048, 2048]) (fun _ => rfl) (check_cut (c1 := [62464, 34816, 6144, 2048]) (c2 := [64512, 34816, 6144, 2048]) (h := [1024, 2048, 2048, 2048]) (fun _ => rfl) h263 h264) h265)) (check_cut (c1 := [63488, 38912, 2048, 4096]) (c2 := [63488, 38912, 6144, 4096]) (h := [2048, 2048, 2048, 4096]) (fun _ => rfl) h266 (check_cut (c1 := [63488, 38912, 6144, 2048]) (c2 := [63488, 38912, 6144, 6144]) (h := [2048, 2048, 2048, 2048]) (fun _ => rfl) (check_cut (c1 := [62464, 38912, 6144, 2048]) (c2 := [64512, 38912, 6144, 2048]) (h := [1024, 2048, 2048, 2048]) (fun _ => rfl) h267 h268) h269)))) h270) (check_cut (c1 := [61440, 36864, 12288, 4096]) (c2 := [61440, 36864, 12288, 12288]) (h := [4096, 4096, 4096, 4096]) (fun _ => rfl) (check_cut (c1 := [59392, 36864, 12288, 4096]) (c2 := [63488, 36864, 12288, 4096]) (h := [2048, 4096, 4096, 4096]) (fun _ => rfl) (check_cut (c1 := [59392, 34816, 12288, 4096]) (c2 := [59392, 38912, 12288, 4096]) (h := [2048, 2048, 4096, 4096]) (fun _ => rfl) (check_cut (c1 := [59392, 34816, 10240, 4096]) (c2 := [59392, 34816, 14336, 4096]) (h := [2048, 2048, 2048, 4096]) (fun _ => rfl) h271 h272) (check_cut (c1 := [59392, 38912, 10240, 4096]) (c2 := [59392, 38912, 14336, 4096]) (h := [2048, 2048, 2048, 4096]) (fun _ => rfl) h273 h274)) (check_cut (c1 := [63488, 34816, 12288, 4096]) (c2 := [63488, 38912, 12288, 4096]) (h := [2048, 2048, 4096, 4096]) (fun _ => rfl) (check_cut (c1 := [63488, 34816, 10240, 4096]) (c2 := [63488, 34816, 14336, 4096]) (h := [2048, 2048, 2048, 4096]) (fun _ => rfl) (check_cut (c1 := [63488, 34816, 10240, 2048]) (c2 := [63488, 34816, 10240, 6144]) (h := [2048, 2048, 2048, 2048]) (fun _ => rfl) h275 h276) h277) (check_cut (c1 := [63488, 38912, 10240, 4096]) (c2 := [63488, 38912, 14336, 4096]) (h := [2048, 2048, 2048, 4096]) (fun _ => rfl) (check_cut (c1 := [63488, 38912, 10240, 2048]) (c2 := [63488, 38912, 10240, 6144]) (h := [2048, 2048, 2048, 2048]) (fun _ => rfl) (check_cut (c1 := [62464, 38912, 10240, 2048]) (c2 := [64512, 38912, 10240, 2048]) (h := [1024, 2048, 2048, 2048]) (fun _ => rfl) h278 h279) h280) h281))) (check_cut (c1 := [59392, 36864, 12288, 12288]) (c2 := [63488, 36864, 12288, 12288]) (h := [2048, 4096, 4096, 4096]) (fun _ => rfl) h282 h283))) (check_cut (c1 := [61440, 45056, 4096, 8192]) (c2 := [61440, 45056, 12288, 8192]) (h := [4096, 4096, 4096, 8192]) (fun _ => rfl) (check_cut (c1 := [61440, 45056, 4096, 4096]) (c2 := [61440, 45056, 4096, 12288]) (h := [4096, 4096, 4096, 4096]) (fun _ => rfl) (check_cut (c1 := [59392, 45056, 4096, 4096]) (c2 := [63488, 45056, 4096, 4096]) (h := [2048, 4096, 4096, 4096]) (fun _ => rfl) h284 h285) h286) (check_cut (c1 := [61440, 45056, 12288, 4096]) (c2 := [61440, 45056, 12288, 12288]) (h := [4096, 4096, 4096, 4096]) (fun _ => rfl) (check_cut (c1 := [59392, 45056, 12288, 4096]) (c2 := [63488, 45056, 12288, 4096]) (h := [2048, 4096, 4096, 4096]) (fun _ => rfl) (check_cut (c1 := [59392, 43008, 12288, 4096]) (c2 := [59392, 47104, 12288, 4096]) (h := [2048, 2048, 4096, 4096]) (fun _ => rfl) h287 h288) (check_cut (c1 := [63488, 43008, 12288, 4096]) (c2 := [63488, 47104, 12288, 4096]) (h := [2048, 2048, 4096, 4096]) (fun _ => rfl) (check_cut (c1 := [63488, 43008, 10240, 4096]) (c2 := [63488, 43008, 14336, 4096]) (h := [2048, 2048, 2048, 4096]) (fun _ => rfl) h289 h290) h291)) (check_cut (c1 := [59392, 45056, 12288, 12288]) (c2 := [63488, 45056, 12288, 12288]) (h := [2048, 4096, 4096, 4096]) (fun _ => rfl) h292 h293))))) h294) (check_cut (c1 := [57344, 40960, 24576, 8192]) (c2 := [57344, 40960, 24576, 24576]) (h := [8192, 8192, 8192, 8192]) (fun _ => rfl) (check_cut (c1 := [53248, 40960, 24576, 8192]) (c2 := [61440, 40960, 24576, 8192]) (h := [4096, 8192, 8192, 8192]) (fun _ => rfl) (check_cut (c1 := [53248, 36864, 24576, 8192]) (c2 := [53248, 45056, 24576, 8192]) (h := [4096, 4096, 8192, 8192]) (fun _ => rfl) (check_cut (c1 := [53248, 36864, 20480, 8192]) (c2 := [53248, 36864, 28672, 8192]) (h := [4096, 4096, 4096, 8192]) (fun _ => rfl) h295 h296) (check_cut (c1 := [53248, 45056, 20480, 8192]) (c2 := [53248, 45056, 28672, 8192]) (h := [4096, 4096, 4096, 8192]) (fun _ => rfl) (check_cut (c1 := [53248, 45056, 20480, 4096]) (c2 := [53248, 45056, 20480, 12288]) (h := [4096, 4096, 4096, 4096]) (fun _ => rfl) h297 h298) h299)) (check_cut (c1 := [61440, 36864, 24576, 8192]) (c2 := [61440, 45056, 24576, 8192]) (h := [4096, 4096, 8192, 8192]) (fun _ => rfl) (check_cut (c1 := [61440, 36864, 20480, 8192]) (c2 := [61440, 36864, 28672, 8192]) (h := [4096, 4096, 4096, 8192]) (fun _ => rfl) (check_cut (c1 := [61440, 36864, 20480, 4096]) (c2 := [61440, 36864, 20480, 12288]) (h := [4096, 4096, 4096, 4096]) (fun _ => rfl) (check_cut (c1 := [59392, 36864, 20480, 4096]) (c2 := [63488, 36864, 20480, 4096]) (h := [2048, 4096, 4096, 4096]) (fun _ => rfl) h300 h301) h302) h303) (check_cut (c1 := [61440, 45056, 20480, 8192]) (c2 := [61440, 45056, 28672, 8192]) (h := [4096, 4096, 4096, 8192]) (fun _ => rfl) (check_cut (c1 := [61440, 45056, 20480, 4096]) (c2 := [61440, 45056, 20480, 12288]) (h := [4096, 4096, 4096, 4096]) (fun _ => rfl) (check_cut (c1 := [59392, 45056, 20480, 4096]) (c2 := [63488, 45056, 20480, 4096]) (h := [2048, 4096, 4096, 4096]) (fun _ => rfl) (check_cut (c1 := [59392, 43008, 20480, 4096]) (c2 := [59392, 47104, 20480, 4096]) (h := [2048, 2048, 4096, 4096]) (fun _ => rfl) h304 h305) (check_cut (c1 := [63488, 43008, 20480, 4096]) (c2 := [63488, 47104, 20480, 4096]) (h := [2048, 2048, 4096, 4096]) (fun _ => rfl) h306 h307)) h308) h309))) (check_cut (c1 := [53248, 40960, 24576, 24576]) (c2 := [61440, 40960, 24576, 24576]) (h := [4096, 8192, 8192, 8192]) (fun _ => rfl) h310 h311))) (check_cut (c1 := [57344, 57344, 8192, 16384]) (c2 := [57344, 57344, 24576, 16384]) (h := [8192, 8192, 8192, 16384]) (fun _ => rfl) (check_cut (c1 := [57344, 57344, 8192, 8192]) (c2 := [57344, 57344, 8192, 24576]) (h := [8192, 8192, 8192, 8192]) (fun _ => rfl) (check_cut (c1 := [53248, 57344, 8192, 8192]) (c2 := [61440, 57344, 8192, 8192]) (h := [4096, 8192, 8192, 8192]) (fun _ => rfl) (check_cut (c1 := [53248, 53248, 8192, 8192]) (c2 := [53248, 61440, 8192, 8192]) (h := [4096, 4096, 8192, 8192]) (fun _ => rfl) h312 h313) (check_cut (c1 := [61440, 53248, 8192, 8192]) (c2 := [61440, 61440, 8192, 8192]) (h := [4096, 4096, 8192, 8192]) (fun _ => rfl) (check_cut (c1 := [61440, 53248, 4096, 8192]) (c2 := [61440, 53248, 12288, 8192]) (h := [4096, 4096, 4096, 8192]) (fun _ => rfl) h314 (check_cut (c1 := [61440, 53248, 12288, 4096]) (c2 := [61440, 53248, 12288, 12288]) (h := [4096, 4096, 4096, 4096]) (fun _ => rfl) h315 h316)) h317)) h318) (check_cut (c1 := [57344, 57344, 24576, 8192]) (c2 := [57344, 57344, 24576, 24576]) (h := [8192, 8192, 8192, 8192]) (fun _ => rfl) (check_cut (c1 := [53248, 57344, 24576, 8192]) (c2 := [61440, 57344, 24576, 8192]) (h := [4096, 8192, 8192, 8192]) (fun _ => rfl) (check_cut (c1 := [53248, 53248, 24576, 8192]) (c2 := [53248, 61440, 24576, 8192]) (h := [4096, 4096, 8192, 8192]) (fun _ => rfl) (check_cut (c1 := [53248, 53248, 20480, 8192]) (c2 := [53248, 53248, 28672, 8192]) (h := [4096, 4096, 4096, 8192]) (fun _ => rfl) (check_cut (c1 := [53248, 53248, 20480, 4096]) (c2 := [53248, 53248, 20480, 12288]) (h := [4096, 4096, 4096, 4096]) (fun _ => rfl) h319 h320) h321) h322) h323) h324)))) h325) (check_cut (c1 := [49152, 49152, 49152, 16384]) (c2 := [49152, 49152, 49152, 49152]) (h := [16384, 16384, 16384, 16384]) (fun _ => rfl) (check_cut (c1 := [40960, 49152, 49152, 16384]) (c2 := [57344, 49152, 49152, 16384]) (h := [8192, 16384, 16384, 16384]) (fun _ => rfl) (check_cut (c1 := [40960, 40960, 49152, 16384]) (c2 := [40960, 57344, 49152, 16384]) (h := [8192, 8192, 16384, 16384]) (fun _ => rfl) (check_cut (c1 := [40960, 40960, 40960, 16384]) (c2 := [40960, 40960, 57344, 16384]) (h := [8192, 8192, 8192, 16384]) (fun _ => rfl) (check_cut (c1 := [40960, 40960, 40960, 8192]) (c2 := [40960, 40960, 40960, 24576]) (h := [8192, 8192, 8192, 8192]) (fun _ => rfl) (check_cut (c1 := [36864, 40960, 40960, 8192]) (c2 := [45056, 40960, 40960, 8192]) (h := [4096, 8192, 8192, 8192]) (fun _ => rfl) h326 (check_cut (c1 := [45056, 36864, 40960, 8192]) (c2 := [45056, 45056, 40960, 8192]) (h := [4096, 4096, 8192, 8192]) (fun _ => rfl) h327 h328)) (check_cut (c1 := [36864, 40960, 40960, 24576]) (c2 := [45056, 40960, 40960, 24576]) (h := [4096, 8192, 8192, 8192]) (fun _ => rfl) (check_cut (c1 := [36864, 36864, 40960, 24576]) (c2 := [36864, 45056, 40960, 24576]) (h := [4096, 4096, 8192, 8192]) (fun _ => rfl) (check_cut (c1 := [36864, 36864, 36864, 24576]) (c2 := [36864, 36864, 45056, 24576]) (h := [4096, 4096, 4096, 8192]) (fun _ => rfl) (check_cut (c1 := [36864, 36864, 36864, 20480]) (c2 := [36864, 36864, 36864, 28672]) (h := [4096, 4096, 4096, 4096]) (fun _ => rfl) (check_cut (c1 := [34816, 36864, 36864, 20480]) (c2 := [38912, 36864, 36864, 20480]) (h := [2048, 4096, 4096, 4096]) (fun _ => rfl) h329 h330) (check_cut (c1 := [34816, 36864, 36864, 28672]) (c2 := [38912, 36864, 36864, 28672]) (h := [2048, 4096, 4096, 4096]) (fun _ => rfl) h331 h332)) h333) h334) h335)) h336) h337) (check_cut (c1 := [57344, 40960, 49152, 16384]) (c2 := [57344, 57344, 49152, 16384]) (h := [8192, 8192, 16384, 16384]) (fun _ => rfl) (check_cut (c1 := [57344, 40960, 40960, 16384]) (c2 := [57344, 40960, 57344, 16384]) (h := [8192, 8192, 8192, 16384]) (fun _ => rfl) (check_cut (c1 := [57344, 40960, 40960, 8192]) (c2 := [57344, 40960, 40960, 24576]) (h := [8192, 8192, 8192, 8192]) (fun _ => rfl) h338 h339) h340) h341)) h342))))

end FastNoise.RangeCheck.OuterSuper4
