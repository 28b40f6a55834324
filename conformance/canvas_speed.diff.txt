--- /verif/lean/Verif/Model/Canvas.lean	2026-11-18 10:41:11.599776675 +0000
+++ proj/Verif/Model/Canvas.lean	2026-11-18 14:06:43.660666303 +0000
@@ -44,34 +44,37 @@
 def rotate90 (c : Canvas) : Rs Canvas := do
   let w := c.width
   let h := c.getHeight
-  let px ← forRange h (List.replicate (w * h) RGBA.blank) fun r y =>
+  let src := c.bytes.toArray
+  let px ← forRange h (Array.replicate (w * h) RGBA.blank) fun r y =>
     forRange w r fun r x => do
-      let v ← idx c.bytes (y * w + x)
-      setIdx r (x * h + (h - 1 - y)) v
+      let v := src.getD (y * w + x) RGBA.blank
+      .ok (r.setIfInBounds (x * h + (h - 1 - y)) v)
   pure { c with
-    bytes := px
+    bytes := px.toList
     width := h }
 
 /-- thermal_image.rs:145-157 `rotate_180` -/
 def rotate180 (c : Canvas) : Rs Canvas := do
   let w := c.width
   let h := c.getHeight
-  let px ← forRange h (List.replicate (w * h) RGBA.blank) fun r y =>
+  let src := c.bytes.toArray
+  let px ← forRange h (Array.replicate (w * h) RGBA.blank) fun r y =>
     forRange w r fun r x => do
-      let v ← idx c.bytes (y * w + x)
-      setIdx r ((h - 1 - y) * w + (w - 1 - x)) v
-  pure { c with bytes := px }
+      let v := src.getD (y * w + x) RGBA.blank
+      .ok (r.setIfInBounds ((h - 1 - y) * w + (w - 1 - x)) v)
+  pure { c with bytes := px.toList }
 
 /-- thermal_image.rs:159-172 `rotate_270` -/
 def rotate270 (c : Canvas) : Rs Canvas := do
   let w := c.width
   let h := c.getHeight
-  let px ← forRange h (List.replicate (w * h) RGBA.blank) fun r y =>
+  let src := c.bytes.toArray
+  let px ← forRange h (Array.replicate (w * h) RGBA.blank) fun r y =>
     forRange w r fun r x => do
-      let v ← idx c.bytes (y * w + x)
-      setIdx r ((w - 1 - x) * h + y) v
+      let v := src.getD (y * w + x) RGBA.blank
+      .ok (r.setIfInBounds ((w - 1 - x) * h + y) v)
   pure { c with
-    bytes := px
+    bytes := px.toList
     width := h }
 
 /-- thermal_image.rs:175-178 `set_width` -/
@@ -120,18 +123,22 @@
     cropPixels pixels width height (c.width - x) (if c.getHeight ≤ y then 0 else c.getHeight - y) (!c.autoGrow)
   else pure (width, height, pixels)
 
-/-- thermal_image.rs:553-577: the loops over the pixels; `op` is `multiply_foreground` or `blend_foreground`. -/
-def putLoop (op : RGBA → RGBA → RGBA) (width x fw : Nat) : List RGBA → Nat → Nat → List RGBA → Rs (List RGBA)
+
+partial def putArr (op : RGBA → RGBA → RGBA) (width x fw : Nat) : List RGBA → Nat → Nat → Array RGBA → Rs (Array RGBA)
   | [], _, _, bytes => .ok bytes
-  | p :: rest, curX, curY, bytes => do
-    let r ← mulU32 curY width
-    let i ← addU32 r curX
-    let old ← idx bytes i
-    let bytes ← setIdx bytes i (op old p)
-    let e ← addU32 x fw
-    let last ← subU e 1
-    if curX = last then do putLoop op width x fw rest x (← addU32 curY 1) bytes
-    else do putLoop op width x fw rest (← addU32 curX 1) curY bytes
+  | p :: rest, curX, curY, bytes =>
+    let i := curY * width + curX
+    if h : i < bytes.size then
+      let old := bytes[i]
+      let bytes := bytes.set i (op old p)
+      if curX + 1 = x + fw then putArr op width x fw rest x (curY + 1) bytes
+      else putArr op width x fw rest (curX + 1) curY bytes
+    else .error .overflow
+
+def putLoop (op : RGBA → RGBA → RGBA) (width x fw : Nat) (px : List RGBA) (curX curY : Nat) (bytes : List RGBA) : Rs (List RGBA) :=
+  match putArr op width x fw px curX curY bytes.toArray with
+  | .ok a => .ok a.toList
+  | .error e => .error e
 
 /-- thermal_image.rs:515-523: the message. -/
 def exceeded (x y w h : Nat) (a b : Bool) : Str :=
