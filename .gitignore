__pycache__/
lake-manifest.json
